import Verif.Go.Basic
import Verif.Go.Float
import Verif.Go.Platform
import Verif.Go.Protobuf
import Verif.Go.Time
import Verif.Lemmas.Basic
import Verif.Lemmas.Bits
import Verif.Lemmas.Count
import Verif.Lemmas.CrcOrder
import Verif.Lemmas.CrcPoly
import Verif.Lemmas.Fault
import Verif.Lemmas.Float
import Verif.Lemmas.FloatDigits
import Verif.Lemmas.FloatText
import Verif.Lemmas.Frame
import Verif.Lemmas.Gate
import Verif.Lemmas.Grammar
import Verif.Lemmas.Header
import Verif.Lemmas.KernelRfl
import Verif.Lemmas.Longer
import Verif.Lemmas.Loop
import Verif.Lemmas.Numeral
import Verif.Lemmas.Origin
import Verif.Lemmas.Pos
import Verif.Lemmas.ProtoMerge
import Verif.Lemmas.Protobuf
import Verif.Lemmas.Readable
import Verif.Lemmas.Records
import Verif.Lemmas.Reply
import Verif.Lemmas.ReplyBytes
import Verif.Lemmas.Reuse
import Verif.Lemmas.Scan
import Verif.Lemmas.Serve
import Verif.Lemmas.ServiceData
import Verif.Lemmas.StorageRecord
import Verif.Lemmas.Stream
import Verif.Lemmas.SubCount
import Verif.Lemmas.Total
import Verif.Lemmas.Verdict
import Verif.Lemmas.Wire
import Verif.Lemmas.Work
import Verif.Lemmas.YamlRead
import Verif.Model.CmdLine
import Verif.Model.Config
import Verif.Model.Crc
import Verif.Model.FloatText
import Verif.Model.Gate
import Verif.Model.Getters
import Verif.Model.Json
import Verif.Model.JsonIndent
import Verif.Model.JsonText
import Verif.Model.Log
import Verif.Model.Main
import Verif.Model.Package
import Verif.Model.PackageJson
import Verif.Model.PacketGen
import Verif.Model.Reason
import Verif.Model.Records
import Verif.Model.SendEgts
import Verif.Model.Server
import Verif.Model.SrAdSensorsData
import Verif.Model.SrCountersData
import Verif.Model.SrExtPosData
import Verif.Model.SrIdentity
import Verif.Model.SrPosData
import Verif.Model.SrSmall
import Verif.Model.Stall
import Verif.Model.Storage
import Verif.Model.StorageCalls
import Verif.Model.StorageRecord
import Verif.Model.TimeParse
import Verif.Model.Timer
import Verif.Model.Timers
import Verif.Model.Work
import Verif.Props.Accept
import Verif.Props.AdSensors
import Verif.Props.Agree
import Verif.Props.Alone
import Verif.Props.AnyStream
import Verif.Props.Attribute
import Verif.Props.Batch
import Verif.Props.Body
import Verif.Props.CmdFlags
import Verif.Props.CmdFloat
import Verif.Props.CmdNumber
import Verif.Props.CmdReal
import Verif.Props.Config
import Verif.Props.Conform
import Verif.Props.ConnExact
import Verif.Props.Counters
import Verif.Props.Crc
import Verif.Props.Credentials
import Verif.Props.Decode
import Verif.Props.Decode2
import Verif.Props.DecodeAll
import Verif.Props.Edit
import Verif.Props.Encodable
import Verif.Props.EncodeBack
import Verif.Props.EndToEnd
import Verif.Props.ExtPos
import Verif.Props.Fair
import Verif.Props.Fault
import Verif.Props.Flags
import Verif.Props.FloatDoc
import Verif.Props.FloatShort
import Verif.Props.FloatText
import Verif.Props.Forward
import Verif.Props.Gate
import Verif.Props.GateStream
import Verif.Props.GenBytes
import Verif.Props.GenCommand
import Verif.Props.Getters
import Verif.Props.Grammar
import Verif.Props.History
import Verif.Props.Identity
import Verif.Props.Influence
import Verif.Props.Json
import Verif.Props.JsonIndent
import Verif.Props.JsonSafe
import Verif.Props.JsonText
import Verif.Props.Library
import Verif.Props.Log
import Verif.Props.LogEx
import Verif.Props.Longer
import Verif.Props.Main
import Verif.Props.Misfit
import Verif.Props.OneBad
import Verif.Props.Package
import Verif.Props.PackageDoc
import Verif.Props.PackageEx
import Verif.Props.PackageJson
import Verif.Props.PackageText
import Verif.Props.PacketGen
import Verif.Props.PanicWrap
import Verif.Props.PassOn
import Verif.Props.PassOnEx
import Verif.Props.Pos
import Verif.Props.Prompt
import Verif.Props.Readable
import Verif.Props.Reason
import Verif.Props.Records
import Verif.Props.Replay
import Verif.Props.Resend
import Verif.Props.Resources
import Verif.Props.Resume
import Verif.Props.Reuse
import Verif.Props.Saved
import Verif.Props.SendEgts
import Verif.Props.Server
import Verif.Props.Server2
import Verif.Props.Server3
import Verif.Props.ServerEx
import Verif.Props.ServerEx2
import Verif.Props.Small
import Verif.Props.Stall
import Verif.Props.Storage
import Verif.Props.StorageCalls
import Verif.Props.StorageInit
import Verif.Props.StorageJson
import Verif.Props.StorageOrder
import Verif.Props.StorageRecord
import Verif.Props.StorageWire
import Verif.Props.Stored
import Verif.Props.StoredSize
import Verif.Props.SubWire
import Verif.Props.Swap
import Verif.Props.SwapHeader
import Verif.Props.Tells
import Verif.Props.Time
import Verif.Props.TimeStamp
import Verif.Props.Timer
import Verif.Props.Timers
import Verif.Props.Trace
import Verif.Props.Truncate
import Verif.Props.Turns
import Verif.Props.Unchanged
import Verif.Props.Wander
import Verif.Props.WanderBound
import Verif.Props.Work
import Verif.Props.YamlConfig
import Verif.Spec.Agree
import Verif.Spec.Alone
import Verif.Spec.Answer
import Verif.Spec.Attribute
import Verif.Spec.Batch
import Verif.Spec.Body
import Verif.Spec.CmdLine
import Verif.Spec.Conform
import Verif.Spec.ConnString
import Verif.Spec.CrcSpec
import Verif.Spec.Credentials
import Verif.Spec.Decode
import Verif.Spec.Encodable
import Verif.Spec.Fault
import Verif.Spec.Flags
import Verif.Spec.FloatText
import Verif.Spec.Frame
import Verif.Spec.Gate
import Verif.Spec.Gen
import Verif.Spec.Getters
import Verif.Spec.History
import Verif.Spec.Influence
import Verif.Spec.Json
import Verif.Spec.JsonParse
import Verif.Spec.Library
import Verif.Spec.Log
import Verif.Spec.Longer
import Verif.Spec.NetAddr
import Verif.Spec.Numeral
import Verif.Spec.Package
import Verif.Spec.PackageJson
import Verif.Spec.PassOn
import Verif.Spec.Pos
import Verif.Spec.ProtoGrammar
import Verif.Spec.ProtoWire
import Verif.Spec.RawBody
import Verif.Spec.Readable
import Verif.Spec.Reason
import Verif.Spec.Records
import Verif.Spec.Rejected
import Verif.Spec.Resume
import Verif.Spec.Reuse
import Verif.Spec.SendEgts
import Verif.Spec.Server
import Verif.Spec.Storage
import Verif.Spec.StorageJson
import Verif.Spec.StorageOrder
import Verif.Spec.Stream
import Verif.Spec.SubRecord
import Verif.Spec.SubWire
import Verif.Spec.Tells
import Verif.Spec.Time
import Verif.Spec.TimeStamp
import Verif.Spec.Timers
import Verif.Spec.Wander
import Verif.Spec.Wire
import Verif.Spec.Yaml
import Verif.Tests.GoVectors
import Verif.Tests.Recorded
