import Verif.Model.Records
import Verif.Spec.Wire
/- Type codes of the subrecords on the wire (GOST R 54619 / the comments of record_data.go). -/
set_option autoImplicit false
namespace Egts
variable [P : Platform]

/-- type code of every subrecord kind -/
def SubData.typeCode : SubData → UInt8
  | .response _ => 0
  | .term _ => 1
  | .dispatcher _ => 5
  | .auth _ => 7
  | .result _ => 9
  | .storage _ => 15
  | .pos _ => 16
  | .ext _ => 17
  | .ad _ => 18
  | .counters _ => 19
  | .state _ => 21
  | .absAn _ => 24
  | .absCntr _ => 25
  | .liquid _ => 27

/-- is it a dispatcher identity? -/
def SubData.isDispatcher : SubData → Bool
  | .dispatcher _ => true
  | _ => false

/-- the length field of a subrecord is left 0 (to be filled in) or is the length of its encoded data, and the
encoded data fits the 16-bit length field -/
def RecordData.LengthOk (rd : RecordData) : Prop :=
  ∃ d b, rd.SubrecordData = some d ∧ d.encode = .ok b ∧ b.length < 65536 ∧
    (rd.SubrecordLength = 0 ∨ rd.SubrecordLength.toNat = b.length)

/-- the type code of a subrecord is its code, or left 0 to be filled in (every kind except dispatcher
identity); a state subrecord may also have the code 20 -/
def RecordData.TypeOk (rd : RecordData) : Prop :=
  ∃ d, rd.SubrecordData = some d ∧
    (rd.SubrecordType = d.typeCode ∨ (rd.SubrecordType = 0 ∧ d.isDispatcher = false) ∨
      (rd.SubrecordType = 20 ∧ ∃ s, d = .state s))

/-- the record length field is left 0 or is the length of the encoded subrecords, which fits 16 bits -/
def ServiceDataRecord.LengthOk (e : ServiceDataRecord) : Prop :=
  ∃ b, RecordDataSet.encode e.RecordDataSet = .ok b ∧ b.length < 65536 ∧
    (e.RecordLength = 0 ∨ e.RecordLength.toNat = b.length)

end Egts

namespace Egts
variable [P : Platform]

/-- flag strings of a service data record have their widths -/
def ServiceDataRecord.FlagsOk (e : ServiceDataRecord) : Prop :=
  IsBit e.SourceServiceOnDevice ∧ IsBit e.RecipientServiceOnDevice ∧ IsBit e.Group ∧
  IsBit2 e.RecordProcessingPriority ∧ IsBit e.TimeFieldExists ∧ IsBit e.EventIDFieldExists ∧ IsBit e.ObjectIDFieldExists

/-- what a record is expected to be after a round trip: the record length filled in, the optional fields that
are not marked as existing 0, and the subrecords as they are after their round trip -/
def ServiceDataRecord.received (e : ServiceDataRecord) (len : Nat) (rds : List RecordData) : ServiceDataRecord :=
  { e with
    RecordLength := UInt16.ofNat len
    ObjectIdentifier := if e.ObjectIDFieldExists = [49] then e.ObjectIdentifier else 0
    EventIdentifier := if e.EventIDFieldExists = [49] then e.EventIdentifier else 0
    Time := if e.TimeFieldExists = [49] then e.Time else 0
    RecordDataSet := rds }

end Egts
