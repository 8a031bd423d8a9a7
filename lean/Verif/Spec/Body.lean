import Verif.Model.Records
import Verif.Spec.Frame
import Verif.Spec.Wire
set_option autoImplicit false
/- The layout of a service data body (GOST R 54619: records RL RN RFL [OID] [EVID] [TM] SST RST RD, subrecords SRT SRL SRD),
as a grammar that relates bytes to the records they hold. Independent of the loops of the decoder. -/
namespace Egts
open Frame
variable [P : Platform]

/-- the content `c` of a subrecord with type code `t` and length field `srl` holds the data `d`: the decoder of the
kind of that type code, called on `c` alone, accepts it and yields `d` (type 20 with length 5 is state data) -/
def Content (t : UInt8) (srl : UInt16) (c : Bytes) : SubData → Prop
  | .response d => t = 0 ∧ SrResponse.decode {} c = .ok d
  | .term d => t = 1 ∧ SrTermIdentity.decode {} c = .ok d
  | .dispatcher d => t = 5 ∧ SrDispatcherIdentity.decode {} c = .ok d
  | .auth d => t = 7 ∧ SrAuthInfo.decode {} c = .ok d
  | .result d => t = 9 ∧ SrResultCode.decode {} c = .ok d
  | .storage d => t = 15 ∧ P.pbUnmarshal c = some d
  | .pos d => t = 16 ∧ SrPosData.decode {} c = .ok d
  | .ext d => t = 17 ∧ SrExtPosData.decode {} c = .ok d
  | .ad d => t = 18 ∧ SrAdSensorsData.decode {} c = .ok d
  | .counters d => t = 19 ∧ SrCountersData.decode {} c = .ok d
  | .state d => (t = 20 ∧ srl = 5 ∨ t = 21) ∧ SrStateData.decode {} c = .ok d
  | .absAn d => t = 24 ∧ SrAbsAnSensData.decode {} c = .ok d
  | .absCntr d => t = 25 ∧ SrAbsCntrData.decode {} c = .ok d
  | .liquid d => t = 27 ∧ SrLiquidLevelSensor.decode {} c = .ok d

/-- `b` starts with the complete subrecord `rd`, followed by `rest`: type, length, exactly that many bytes of content -/
def CompleteSub (b : Bytes) (rd : RecordData) (rest : Bytes) : Prop :=
  ∃ c d, b = [rd.SubrecordType] ++ leBytes 2 c.length ++ c ++ rest ∧ c.length = rd.SubrecordLength.toNat ∧
    rd.SubrecordData = some d ∧ Content rd.SubrecordType rd.SubrecordLength c d

/-- `b` is a subrecord cut off by the end of the record data: less content than announced, or only one byte of the
length field and no content -/
def CutSub (b : Bytes) (rd : RecordData) : Prop :=
  (∃ c d, b = [rd.SubrecordType] ++ leBytes 2 rd.SubrecordLength.toNat ++ c ∧ c.length < rd.SubrecordLength.toNat ∧
    rd.SubrecordData = some d ∧ Content rd.SubrecordType rd.SubrecordLength c d) ∨
  (∃ d, b = [rd.SubrecordType] ++ leBytes 1 rd.SubrecordLength.toNat ∧ rd.SubrecordLength.toNat < 256 ∧
    rd.SubrecordData = some d ∧ Content rd.SubrecordType rd.SubrecordLength [] d)

/-- `b` is a sequence of complete subrecords -/
inductive CompleteSubs : Bytes → List RecordData → Prop where
  | nil : CompleteSubs [] []
  | cons {b rest : Bytes} {rd : RecordData} {l : List RecordData} :
      CompleteSub b rd rest → CompleteSubs rest l → CompleteSubs b (rd :: l)

/-- `b` is a sequence of subrecords of which only the last may be cut off -/
inductive Subs : Bytes → List RecordData → Prop where
  | nil : Subs [] []
  | cut {b : Bytes} {rd : RecordData} : CutSub b rd → Subs b [rd]
  | cons {b rest : Bytes} {rd : RecordData} {l : List RecordData} :
      CompleteSub b rd rest → Subs rest l → Subs b (rd :: l)

/-- `hdr` is the header of record `r`, with flag byte `fl`: record length, record number, flags, the optional object,
event and time fields announced by bits 0, 1 and 2, source and recipient service; absent fields are 0 -/
def RecordHeader (hdr : Bytes) (r : ServiceDataRecord) : Prop := ∃ fl : UInt8,
  hdr = leBytes 2 r.RecordLength.toNat ++ leBytes 2 r.RecordNumber.toNat ++ [fl] ++
    (if fl.toNat.testBit 0 then leBytes 4 r.ObjectIdentifier.toNat else []) ++
    (if fl.toNat.testBit 1 then leBytes 4 r.EventIdentifier.toNat else []) ++
    (if fl.toNat.testBit 2 then leBytes 4 r.Time.toNat else []) ++ [r.SourceServiceType, r.RecipientServiceType] ∧
  r.SourceServiceOnDevice = bitText fl 7 ∧ r.RecipientServiceOnDevice = bitText fl 6 ∧ r.Group = bitText fl 5 ∧
  r.RecordProcessingPriority = bitText fl 4 ++ bitText fl 3 ∧ r.TimeFieldExists = bitText fl 2 ∧
  r.EventIDFieldExists = bitText fl 1 ∧ r.ObjectIDFieldExists = bitText fl 0 ∧
  (fl.toNat.testBit 0 = false → r.ObjectIdentifier = 0) ∧ (fl.toNat.testBit 1 = false → r.EventIdentifier = 0) ∧
  (fl.toNat.testBit 2 = false → r.Time = 0)

/-- `b` is a sequence of complete records made of complete subrecords: every length field tells the truth -/
inductive CompleteRecords : Bytes → List ServiceDataRecord → Prop where
  | nil : CompleteRecords [] []
  | cons {hdr data rest : Bytes} {r : ServiceDataRecord} {l : List ServiceDataRecord} :
      RecordHeader hdr r → data.length = r.RecordLength.toNat → CompleteSubs data r.RecordDataSet →
      CompleteRecords rest l → CompleteRecords (hdr ++ data ++ rest) (r :: l)

/-- what the decoder takes for a sequence of records: the last subrecord of each record may be cut off; the last record
may end after its header, or have less data than announced, and is then read as if it were filled up with zeros -/
inductive Records : Bytes → List ServiceDataRecord → Prop where
  | nil : Records [] []
  | cons {hdr data rest : Bytes} {r : ServiceDataRecord} {l : List ServiceDataRecord} :
      RecordHeader hdr r → data.length = r.RecordLength.toNat → Subs data r.RecordDataSet → Records rest l →
      Records (hdr ++ data ++ rest) (r :: l)
  | bare {hdr : Bytes} {r : ServiceDataRecord} :
      RecordHeader hdr r → 0 < r.RecordLength.toNat → r.RecordDataSet = [] → Records hdr [r]
  | cut {hdr data : Bytes} {r : ServiceDataRecord} :
      RecordHeader hdr r → data ≠ [] → data.length < r.RecordLength.toNat →
      Subs (data ++ List.replicate (r.RecordLength.toNat - data.length) 0) r.RecordDataSet → Records (hdr ++ data) [r]

end Egts
