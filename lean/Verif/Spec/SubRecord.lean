import Verif.Spec.Records
import Verif.Props.Pos
import Verif.Props.AdSensors
import Verif.Props.Counters
import Verif.Props.ExtPos
import Verif.Props.Small
import Verif.Props.Identity
set_option autoImplicit false
/- Which subrecords are expected to survive Encode and Decode unchanged, kind by kind, and what "unchanged" means. -/
namespace Egts
variable [P : Platform]

/-- an optional value that is not marked as existing is left at its zero value -/
def AbsentZero {α : Type} (flag : Bytes) (v zero : α) : Prop := flag ≠ [49] → v = zero

/-- a subrecord whose values fit the wire format and whose absent optional values are zero. The cases that
the code gets wrong are excluded: counter 2 (C28), analog sensor flags that are not symmetric (C27), a high course
bit without bit 7 of Direction (C23). -/
def SubData.WellFormed : SubData → Prop
  | .pos e => e.Fits ∧ (e.DirectionHighestBit = 1 → 128 ≤ e.Direction.toNat) ∧ AbsentZero e.ALTE e.Altitude 0 ∧
      e.SourceData = 0 ∧ (∃ n : Nat, n < 2 ^ 32 ∧ e.NavigationTime = (n : Int) * 1000000000) ∧
      (0 ≤ e.Latitude ∧ e.Latitude ≤ 90) ∧ (0 ≤ e.Longitude ∧ e.Longitude ≤ 180)
  | .term e => e.WellFormed ∧ AbsentZero e.HDIDE e.HomeDispatcherIdentifier 0 ∧ AbsentZero e.IMEIE e.IMEI [] ∧
      AbsentZero e.IMSIE e.IMSI [] ∧ AbsentZero e.LNGCE e.LanguageCode [] ∧ AbsentZero e.NIDE e.NetworkIdentifier [] ∧
      AbsentZero e.BSE e.BufferSize 0 ∧ AbsentZero e.MNE e.MobileNumber []
  | .response _ => True
  | .result _ => True
  | .ext e => (IsBit e.NavigationSystemFieldExists ∧ IsBit e.SatellitesFieldExists ∧ IsBit e.PdopFieldExists ∧
      IsBit e.HdopFieldExists ∧ IsBit e.VdopFieldExists) ∧
      AbsentZero e.VdopFieldExists e.VerticalDilutionOfPrecision 0 ∧
      AbsentZero e.HdopFieldExists e.HorizontalDilutionOfPrecision 0 ∧
      AbsentZero e.PdopFieldExists e.PositionDilutionOfPrecision 0 ∧
      AbsentZero e.SatellitesFieldExists e.Satellites 0 ∧ AbsentZero e.NavigationSystemFieldExists e.NavigationSystem 0
  | .ad e => e.FlagsOk ∧ e.AnalogFlagsSymmetric ∧
      (∀ v ∈ [e.ANS1, e.ANS2, e.ANS3, e.ANS4, e.ANS5, e.ANS6, e.ANS7, e.ANS8], v.toNat < 16777216) ∧
      (AbsentZero e.DIOE1 e.ADIO1 0 ∧ AbsentZero e.DIOE2 e.ADIO2 0 ∧ AbsentZero e.DIOE3 e.ADIO3 0 ∧
        AbsentZero e.DIOE4 e.ADIO4 0 ∧ AbsentZero e.DIOE5 e.ADIO5 0 ∧ AbsentZero e.DIOE6 e.ADIO6 0 ∧
        AbsentZero e.DIOE7 e.ADIO7 0 ∧ AbsentZero e.DIOE8 e.ADIO8 0) ∧
      (AbsentZero e.ASFE1 e.ANS1 0 ∧ AbsentZero e.ASFE2 e.ANS2 0 ∧ AbsentZero e.ASFE3 e.ANS3 0 ∧
        AbsentZero e.ASFE4 e.ANS4 0 ∧ AbsentZero e.ASFE5 e.ANS5 0 ∧ AbsentZero e.ASFE6 e.ANS6 0 ∧
        AbsentZero e.ASFE7 e.ANS7 0 ∧ AbsentZero e.ASFE8 e.ANS8 0)
  | .state e => IsBit e.NMS ∧ IsBit e.IBU ∧ IsBit e.BBU
  | .liquid e => IsBit e.LiquidLevelSensorErrorFlag ∧ IsBit2 e.LiquidLevelSensorValueUnit ∧ IsBit e.RawDataFlag ∧
      e.LiquidLevelSensorNumber.toNat < 8
  | .absCntr e => e.CounterValue.toNat < 2 ^ 24
  | .auth e => (0 : UInt8) ∉ e.UserName ∧ (0 : UInt8) ∉ e.UserPassword ∧ (0 : UInt8) ∉ e.ServerSequence
  | .counters e => (IsBit e.CFE1 ∧ e.CFE2 = [48] ∧ IsBit e.CFE3 ∧ IsBit e.CFE4 ∧ IsBit e.CFE5 ∧ IsBit e.CFE6 ∧
      IsBit e.CFE7 ∧ IsBit e.CFE8) ∧
      (∀ v ∈ [e.CN1, e.CN3, e.CN4, e.CN5, e.CN6, e.CN7, e.CN8], v.toNat < 16777216) ∧
      AbsentZero e.CFE1 e.CN1 0 ∧ e.CN2 = 0 ∧ AbsentZero e.CFE3 e.CN3 0 ∧ AbsentZero e.CFE4 e.CN4 0 ∧
      AbsentZero e.CFE5 e.CN5 0 ∧ AbsentZero e.CFE6 e.CN6 0 ∧ AbsentZero e.CFE7 e.CN7 0 ∧ AbsentZero e.CFE8 e.CN8 0
  | .storage m => ∃ b, P.pbMarshal m = some b ∧ P.pbUnmarshal b = some m
  | .absAn e => e.Value.toNat < 2 ^ 24
  | .dispatcher _ => True

/-- a position up to the resolution of the coordinates on the wire (C21) -/
def SamePosition (e e' : SrPosData) : Prop :=
  e' = { e with Latitude := e'.Latitude, Longitude := e'.Longitude } ∧
  |e'.Latitude - e.Latitude| ≤ 90 / fullScale + 90 / 2 ^ 51 ∧
  |e'.Longitude - e.Longitude| ≤ 180 / fullScale + 180 / 2 ^ 51

/-- the same subrecord data; positions up to the resolution of the coordinates -/
def SubData.Same : SubData → SubData → Prop
  | .pos e, d' => ∃ e', d' = .pos e' ∧ SamePosition e e'
  | d, d' => d' = d

/-- the same subrecord: type code and length filled in, same data -/
def RecordData.Same (rd rd' : RecordData) : Prop :=
  ∃ d b d', rd.SubrecordData = some d ∧ d.encode = .ok b ∧ d.Same d' ∧
    rd' = ⟨if rd.SubrecordType = 0 then d.typeCode else rd.SubrecordType, UInt16.ofNat b.length, some d'⟩

end Egts

namespace Egts
variable [P : Platform]

/-- a well-formed subrecord: type code and length right or left 0 to be filled in, well-formed data -/
def RecordData.WellFormed (rd : RecordData) : Prop :=
  rd.TypeOk ∧ rd.LengthOk ∧ ∃ d, rd.SubrecordData = some d ∧ d.WellFormed

/-- a well-formed record -/
def ServiceDataRecord.WellFormed (e : ServiceDataRecord) : Prop :=
  e.FlagsOk ∧ e.LengthOk ∧ ∀ rd ∈ e.RecordDataSet, rd.WellFormed

/-- the same record: record length and those of its subrecords filled in, optional fields that are not marked as
existing 0, same subrecords -/
def ServiceDataRecord.Same (e e' : ServiceDataRecord) : Prop :=
  ∃ b rds, RecordDataSet.encode e.RecordDataSet = .ok b ∧ List.Forall₂ RecordData.Same e.RecordDataSet rds ∧
    e' = e.received b.length rds

/-- a well-formed packet response: no record section, or one with at least one record -/
def PtResponse.WellFormed (e : PtResponse) : Prop :=
  match e.SDR with
  | none => True
  | some l => l ≠ [] ∧ ∀ r ∈ l, r.WellFormed

/-- the same packet response -/
def PtResponse.Same (e e' : PtResponse) : Prop :=
  e'.ResponsePacketID = e.ResponsePacketID ∧ e'.ProcessingResult = e.ProcessingResult ∧
  match e.SDR, e'.SDR with
  | none, none => True
  | some l, some l' => List.Forall₂ ServiceDataRecord.Same l l'
  | _, _ => False

end Egts
