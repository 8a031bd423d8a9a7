import Verif.Model.SrPosData
import Verif.Model.SrExtPosData
import Verif.Model.SrAdSensorsData
import Verif.Model.SrCountersData
import Verif.Model.SrSmall
import Verif.Model.SrIdentity
set_option autoImplicit false
/- Model of libs/egts/record_data.go, service_data_records.go, egts_sr_response.go,
egts_pt_response.go and (as an opaque codec) egts_sr_egtsplus_data.go. -/
namespace Egts
variable [P : Platform]

/-- `SrResponse`, egts_sr_response.go:11-14. -/
structure SrResponse where
  ConfirmedRecordNumber : UInt16 := 0
  RecordStatus : UInt8 := 0
deriving DecidableEq

/-- The dynamic values stored in a `BinaryData` field of a subrecord (binary_data.go:4-8):
one constructor per pointer type that implements the interface as a subrecord. -/
inductive SubData where
  | pos (d : SrPosData)
  | term (d : SrTermIdentity)
  | response (d : SrResponse)
  | result (d : SrResultCode)
  | ext (d : SrExtPosData)
  | ad (d : SrAdSensorsData)
  | state (d : SrStateData)
  | liquid (d : SrLiquidLevelSensor)
  | absCntr (d : SrAbsCntrData)
  | auth (d : SrAuthInfo)
  | counters (d : SrCountersData)
  | storage (d : P.PBMsg)
  | absAn (d : SrAbsAnSensData)
  | dispatcher (d : SrDispatcherIdentity)

/-- `RecordData`, record_data.go:10-14; `none` is a nil interface. -/
structure RecordData where
  SubrecordType : UInt8 := 0
  SubrecordLength : UInt16 := 0
  SubrecordData : Option SubData := none

/-- `RecordDataSet`, record_data.go:17 (nil and empty slices are identified). -/
abbrev RecordDataSet := List RecordData

/-- `ServiceDataRecord`, service_data_records.go:11-27. -/
structure ServiceDataRecord where
  RecordLength : UInt16 := 0
  RecordNumber : UInt16 := 0
  SourceServiceOnDevice : Bytes := []
  RecipientServiceOnDevice : Bytes := []
  Group : Bytes := []
  RecordProcessingPriority : Bytes := []
  TimeFieldExists : Bytes := []
  EventIDFieldExists : Bytes := []
  ObjectIDFieldExists : Bytes := []
  ObjectIdentifier : UInt32 := 0
  EventIdentifier : UInt32 := 0
  Time : UInt32 := 0
  SourceServiceType : UInt8 := 0
  RecipientServiceType : UInt8 := 0
  RecordDataSet : List RecordData := []

/-- `ServiceDataSet`, service_data_records.go:30 (nil and empty slices are identified). -/
abbrev ServiceDataSet := List ServiceDataRecord

/-- body of `(*SrResponse).Decode`, egts_sr_response.go:17-38; `nested` decodes the remaining
bytes into a local `ServiceDataSet` (lines 33-36) whose value is discarded, but whose error is returned. -/
def SrResponse.decodeM (nested : Bytes → Out ServiceDataSet) : Dec SrResponse Unit := do
  let t ← Dec.read (zeros 2)                                            -- 23-24
  Dec.upd fun e => { e with ConfirmedRecordNumber := u16 t }            -- 27
  Dec.readByteTo fun e b => { e with RecordStatus := b }                -- 29
  let rest ← Dec.unread
  let _ ← Dec.call (nested rest)                                        -- 33-36
  pure ()

/-- `(*SrResponse).Encode`, egts_sr_response.go:41-58. -/
def SrResponse.encode (e : SrResponse) : Go Bytes :=
  .ok (le16 e.ConfirmedRecordNumber ++ [e.RecordStatus])

/-- `(*StorageRecord).Decode`, egts_sr_egtsplus_data.go:241-243. -/
def storageDecode (content : Bytes) : Out P.PBMsg :=
  match P.pbUnmarshal content with
  | some m => .ok m
  | none => .err .proto P.pbEmpty

/-- `(*StorageRecord).Encode`, egts_sr_egtsplus_data.go:245-247. -/
def storageEncode (m : P.PBMsg) : Go Bytes :=
  match P.pbMarshal m with
  | some b => .ok b
  | none => .err .proto

/-- the type switch of `(*RecordDataSet).Decode` with the call of the subrecord decoder on a
fresh value, record_data.go:40-82; `t`, `srl` are SRT and SRL of the subrecord. -/
def decodeSub (nested : Bytes → Out ServiceDataSet) (t : UInt8) (srl : UInt16) (b : Bytes) :
    Out SubData :=
  if t = 16 then (SrPosData.decode {} b).map .pos                       -- 41
  else if t = 1 then (SrTermIdentity.decode {} b).map .term             -- 43
  else if t = 0 then ((SrResponse.decodeM nested).run {} b).map .response -- 45
  else if t = 9 then (SrResultCode.decode {} b).map .result             -- 47
  else if t = 17 then (SrExtPosData.decode {} b).map .ext               -- 49
  else if t = 18 then (SrAdSensorsData.decode {} b).map .ad             -- 51
  else if t = 20 then                                                   -- 52
    if srl = 5 then (SrStateData.decode {} b).map .state                -- 54-55
    else .err (.accelNotImplemented srl b) (.state {})                  -- 58
  else if t = 21 then (SrStateData.decode {} b).map .state              -- 61
  else if t = 27 then (SrLiquidLevelSensor.decode {} b).map .liquid     -- 63
  else if t = 25 then (SrAbsCntrData.decode {} b).map .absCntr          -- 65
  else if t = 7 then (SrAuthInfo.decode {} b).map .auth                 -- 67
  else if t = 19 then (SrCountersData.decode {} b).map .counters        -- 69
  else if t = 15 then (storageDecode b).map .storage                    -- 71
  else if t = 24 then (SrAbsAnSensData.decode {} b).map .absAn          -- 73
  else if t = 5 then (SrDispatcherIdentity.decode {} b).map .dispatcher -- 75
  else .err (.unknownSubrecord t srl b) (.state {})                     -- 77

/-- loop body of `(*RecordDataSet).Decode`, record_data.go:26-83. -/
def rdsStep (nested : Bytes → Out ServiceDataSet) : Dec RecordDataSet Unit := do
  let t ← Dec.readByte                                                  -- 27
  let l ← Dec.read (zeros 2)                                            -- 31-32
  let srl := u16 l                                                      -- 35
  let b ← Dec.next srl.toNat                                            -- 37
  let d ← Dec.call (decodeSub nested t srl b)                           -- 39-82
  Dec.upd fun rds => rds ++ [⟨t, srl, some d⟩]                          -- 83

/-- `(*RecordDataSet).Decode` on receiver `rds`, record_data.go:20-87. -/
def rdsDecode (nested : Bytes → Out ServiceDataSet) (rds : RecordDataSet) (b : Bytes) :
    Out RecordDataSet :=
  (Dec.whileUnread (rdsStep nested)).run rds b

/-- loop body of `(*ServiceDataSet).Decode` up to the `append`, service_data_records.go:40-108,
on a fresh record; the optional fields of lines 65-87 use fresh buffers. -/
def sdrDecodeM (nested : Bytes → Out ServiceDataSet) : Dec ServiceDataRecord Unit := do
  let t ← Dec.read (zeros 2)                                            -- 42-43
  Dec.upd fun e => { e with RecordLength := u16 t }                     -- 46
  let t ← Dec.read t                                                    -- 48 (same buffer)
  Dec.upd fun e => { e with RecordNumber := u16 t }                     -- 51
  let flags ← Dec.readByte                                              -- 53
  let fb := fmtBin 8 flags.toNat                                        -- 56
  Dec.upd fun e => { e with                                             -- 57-63
    SourceServiceOnDevice := sl fb 0 1, RecipientServiceOnDevice := sl fb 1 2,
    Group := sl fb 2 3, RecordProcessingPriority := sl fb 3 5, TimeFieldExists := sl fb 5 6,
    EventIDFieldExists := sl fb 6 7, ObjectIDFieldExists := sl fb 7 8 }
  let _ ← Dec.optRead (·.ObjectIDFieldExists) (zeros 4) u32 fun e v => { e with ObjectIdentifier := v } -- 65-71
  let _ ← Dec.optRead (·.EventIDFieldExists) (zeros 4) u32 fun e v => { e with EventIdentifier := v }   -- 73-79
  let _ ← Dec.optRead (·.TimeFieldExists) (zeros 4) u32 fun e v => { e with Time := v }                 -- 81-87
  Dec.readByteTo fun e b => { e with SourceServiceType := b }           -- 89
  Dec.readByteTo fun e b => { e with RecipientServiceType := b }        -- 93
  let r ← Dec.unread
  Dec.when (decide (r.length ≠ 0)) do                                   -- 97
    let e ← Dec.get
    let b ← Dec.read (zeros e.RecordLength.toNat)                       -- 99-100
    let rds ← Dec.call (rdsDecode nested [] b)                          -- 98, 104
    Dec.upd fun e => { e with RecordDataSet := rds }                    -- 107

/-- loop body of `(*ServiceDataSet).Decode`, service_data_records.go:40-111; on errors the
local record is dropped. -/
def sdsStep (nested : Bytes → Out ServiceDataSet) : Dec ServiceDataSet Unit := fun s r =>
  match sdrDecodeM nested {} r with
  | .ok _ sdr r' => .ok () (s ++ [sdr]) r'                              -- 110
  | .err e _ => .err e s
  | .panic => .panic
  | .diverge => .diverge

/-- `(*ServiceDataSet).Decode` on receiver `s`, service_data_records.go:33-113, given the
decoder for service data nested in record responses. -/
def sdsDecodeWith (nested : Bytes → Out ServiceDataSet) (s : ServiceDataSet) (b : Bytes) :
    Out ServiceDataSet :=
  (Dec.whileUnread (sdsStep nested)).run s b

/-- `ServiceDataSet{}.Decode` with at most `n` levels of nesting (libs/egts/service_data_records.go:33-113, called again from egts_sr_response.go:33-36) -/
def sdsDecodeN : Nat → Bytes → Out ServiceDataSet
  | 0 => fun _ => .diverge
  | n + 1 => sdsDecodeWith (sdsDecodeN n) []

/-- decoder for nested service data, egts_sr_response.go:33-36. -/
def nestedDecode (b : Bytes) : Out ServiceDataSet := sdsDecodeN (nz b + 1) b

/-- `(*ServiceDataSet).Decode`, service_data_records.go:33-113. -/
def ServiceDataSet.decode (s : ServiceDataSet) (b : Bytes) : Out ServiceDataSet :=
  sdsDecodeWith nestedDecode s b

/-- `(*RecordDataSet).Decode`, record_data.go:20-87. -/
def RecordDataSet.decode (s : RecordDataSet) (b : Bytes) : Out RecordDataSet :=
  rdsDecode nestedDecode s b

/-- `(*SrResponse).Decode`, egts_sr_response.go:17-38. -/
def SrResponse.decode (e : SrResponse) (b : Bytes) : Out SrResponse :=
  (SrResponse.decodeM nestedDecode).run e b

/-- dynamic dispatch of `Encode` on a subrecord (binary_data.go:6). -/
def SubData.encode : SubData → Go Bytes
  | .pos d => d.encode
  | .term d => d.encode
  | .response d => d.encode
  | .result d => d.encode
  | .ext d => d.encode
  | .ad d => d.encode
  | .state d => d.encode
  | .liquid d => d.encode
  | .absCntr d => d.encode
  | .auth d => d.encode
  | .counters d => d.encode
  | .storage d => storageEncode d
  | .absAn d => d.encode
  | .dispatcher d => d.encode

/-- dynamic dispatch of `Length` on a subrecord: every implementation encodes and returns
`uint16(len)`, 0 on error (e.g. egts_sr_pos_data.go:209-219); `SrAbsAnSensData.Length` is the
constant 4 (egts_sr_abs_an_sensors_data.go:36-38). -/
def SubData.length : SubData → Go UInt16
  | .absAn _ => .ok 4
  | d => lengthOf d.encode

/-- the type switch of `(*RecordDataSet).Encode`, record_data.go:99-128: type code of a
subrecord whose `SubrecordType` is 0 (`none`: error; there is no case for SrDispatcherIdentity). -/
def inferType : Option SubData → Option UInt8
  | some (.pos _) => some 16
  | some (.term _) => some 1
  | some (.response _) => some 0
  | some (.result _) => some 9
  | some (.ext _) => some 17
  | some (.ad _) => some 18
  | some (.state _) => some 21
  | some (.liquid _) => some 27
  | some (.absCntr _) => some 25
  | some (.auth _) => some 7
  | some (.counters _) => some 19
  | some (.storage _) => some 15
  | some (.absAn _) => some 24
  | some (.dispatcher _) => none
  | none => none

/-- loop body of `(*RecordDataSet).Encode`, record_data.go:97-146. The method call on a nil
interface (lines 136, 142) panics. `rd` is the loop copy: the set itself is not modified. -/
def RecordData.encode (rd : RecordData) : Go Bytes := do
  let t ← (if rd.SubrecordType = 0 then                                 -- 98
      match inferType rd.SubrecordData with
      | some t => .ok t
      | none => .err .unknownData                                       -- 127
    else .ok rd.SubrecordType : Go UInt8)
  match rd.SubrecordData with
  | none => .panic
  | some d => do
    let srl ← (if rd.SubrecordLength = 0 then d.length else .ok rd.SubrecordLength : Go UInt16) -- 135-137
    let b ← d.encode                                                    -- 142
    pure ([t] ++ le16 srl ++ b)                                         -- 131, 138, 146

/-- sequential encoding of list elements into one buffer (the loops of libs/egts/record_data.go:90-152 and service_data_records.go:116-183) -/
def encodeAll {α : Type} (f : α → Go Bytes) : List α → Go Bytes
  | [] => .ok []
  | x :: xs => do
    let b ← f x
    let bs ← encodeAll f xs
    pure (b ++ bs)

/-- `(*RecordDataSet).Encode`, record_data.go:90-152. -/
def RecordDataSet.encode (rds : RecordDataSet) : Go Bytes := encodeAll RecordData.encode rds

/-- `(*RecordDataSet).Length`, record_data.go:155-165. -/
def RecordDataSet.length16 (rds : RecordDataSet) : Go UInt16 := lengthOf (RecordDataSet.encode rds)

/-- loop body of `(*ServiceDataSet).Encode`, service_data_records.go:124-178 (works on a copy of the record). -/
def ServiceDataRecord.encode (e : ServiceDataRecord) : Go Bytes := do
  let rd ← RecordDataSet.encode e.RecordDataSet                         -- 125
  let rl := if e.RecordLength = 0 then len16 rd else e.RecordLength     -- 130-132
  let flags ← parseFlags (e.SourceServiceOnDevice ++ e.RecipientServiceOnDevice ++ e.Group
    ++ e.RecordProcessingPriority ++ e.TimeFieldExists ++ e.EventIDFieldExists
    ++ e.ObjectIDFieldExists)                                           -- 142-144
  pure (le16 rl ++ le16 e.RecordNumber ++ [flags]                       -- 133-149
    ++ (if e.ObjectIDFieldExists == [49] then le32 e.ObjectIdentifier else [])  -- 151-155
    ++ (if e.EventIDFieldExists == [49] then le32 e.EventIdentifier else [])    -- 157-161
    ++ (if e.TimeFieldExists == [49] then le32 e.Time else [])                  -- 163-167
    ++ [e.SourceServiceType, e.RecipientServiceType] ++ rd)             -- 169-177

/-- `(*ServiceDataSet).Encode`, service_data_records.go:116-183. -/
def ServiceDataSet.encode (s : ServiceDataSet) : Go Bytes := encodeAll ServiceDataRecord.encode s

/-- `(*ServiceDataSet).Length`, service_data_records.go:186-196. -/
def ServiceDataSet.length16 (s : ServiceDataSet) : Go UInt16 := lengthOf (ServiceDataSet.encode s)

/-- `PtResponse`, egts_pt_response.go:10-14.  `SDR` has interface type; the only dynamic type
used in the repository (and produced by Decode) is `*ServiceDataSet`. -/
structure PtResponse where
  ResponsePacketID : UInt16 := 0
  ProcessingResult : UInt8 := 0
  SDR : Option ServiceDataSet := none

/-- body of `(*PtResponse).Decode`, egts_pt_response.go:17-43. On an error of the nested
decoder the partially filled set stays in the receiver (line 37); the model keeps the set
returned with the error. -/
def PtResponse.decodeM : Dec PtResponse Unit := do
  let t ← Dec.read (zeros 2)                                            -- 23-24
  Dec.upd fun e => { e with ResponsePacketID := u16 t }                 -- 27
  Dec.readByteTo fun e b => { e with ProcessingResult := b }            -- 29
  let rest ← Dec.unread
  Dec.when (decide (rest.length > 0)) fun s r =>                        -- 34
    match ServiceDataSet.decode [] rest with                            -- 35-36
    | .ok sds => .ok () { s with SDR := some sds } r
    | .err e sds => .err e { s with SDR := some sds }
    | .panic => .panic
    | .diverge => .diverge

/-- `(*PtResponse).Decode`, egts_pt_response.go:17-43. -/
def PtResponse.decode (e : PtResponse) (b : Bytes) : Out PtResponse := PtResponse.decodeM.run e b

/-- `(*PtResponse).Encode`, egts_pt_response.go:46-70. -/
def PtResponse.encode (e : PtResponse) : Go Bytes := do
  let s ← (match e.SDR with
    | some s => ServiceDataSet.encode s
    | none => .ok [] : Go Bytes)
  pure (le16 e.ResponsePacketID ++ [e.ProcessingResult] ++ s)

/-- `(*PtResponse).Length`, egts_pt_response.go:73-83. -/
def PtResponse.length16 (e : PtResponse) : Go UInt16 := lengthOf e.encode

end Egts
