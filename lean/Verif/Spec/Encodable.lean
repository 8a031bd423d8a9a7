import Verif.Model.Package
import Verif.Spec.Flags
set_option autoImplicit false
/- Specification: which packages Encode can write. A package can be written iff every byte of flags is spelled by binary digits, every subrecord
has content, the content can be written, and every subrecord has a type code or content whose code is known. Independent of the encoders. -/
namespace Egts
variable [P : Platform]

/-- a sensor number in binary digits, at least three -/
def numberText (n : Nat) : Bytes := bitsOf (if n < 8 then 3 else Nat.log2 n + 1) n

/-- content that can be written: its flags spell a byte (positions, extended positions, states, sensors, counters, liquid levels); a telematic message
is one that the protobuf library can write; the other kinds can always be written -/
def SubData.Encodable : SubData → Prop
  | .pos e => FlagText [e.ALTE, e.LOHS, e.LAHS, e.MV, e.BB, e.CS, e.FIX, e.VLD]
  | .ext e => FlagText [[48, 48, 48], e.NavigationSystemFieldExists, e.SatellitesFieldExists, e.PdopFieldExists, e.HdopFieldExists,
      e.VdopFieldExists]
  | .ad e => FlagText [e.DIOE8, e.DIOE7, e.DIOE6, e.DIOE5, e.DIOE4, e.DIOE3, e.DIOE2, e.DIOE1] ∧
      FlagText [e.ASFE1, e.ASFE2, e.ASFE3, e.ASFE4, e.ASFE5, e.ASFE6, e.ASFE7, e.ASFE8]
  | .state e => FlagText [[48, 48, 48, 48, 48], e.NMS, e.IBU, e.BBU]
  | .liquid e => FlagText [[48], e.LiquidLevelSensorErrorFlag, e.LiquidLevelSensorValueUnit, e.RawDataFlag,
      numberText e.LiquidLevelSensorNumber.toNat]
  | .counters e => FlagText [e.CFE8, e.CFE7, e.CFE6, e.CFE5, e.CFE4, e.CFE3, e.CFE2, e.CFE1]
  | .storage m => ∃ b, P.pbMarshal m = some b
  | _ => True

/-- a subrecord that can be written: it has content, which can be written, and a type code, or content of a kind other than dispatcher identity -/
def RecordData.Encodable (rd : RecordData) : Prop :=
  ∃ d, rd.SubrecordData = some d ∧ d.Encodable ∧ (rd.SubrecordType = 0 → ∀ x, d ≠ .dispatcher x)

/-- a record that can be written -/
def ServiceDataRecord.Encodable (r : ServiceDataRecord) : Prop :=
  (∀ rd ∈ r.RecordDataSet, rd.Encodable) ∧ FlagText [r.SourceServiceOnDevice, r.RecipientServiceOnDevice, r.Group,
    r.RecordProcessingPriority, r.TimeFieldExists, r.EventIDFieldExists, r.ObjectIDFieldExists]

/-- the records of a package -/
def Package.records (p : Package) : List ServiceDataRecord :=
  match p.ServicesFrameData with
  | some (.appdata s) => s
  | some (.response r) => r.SDR.getD []
  | none => []

/-- the flags of the header spell a byte -/
def Package.HeaderFlags (p : Package) : Prop := FlagText [p.Prefix, p.Route, p.EncryptionAlg, p.Compression, p.Priority]

/-- a package that can be written -/
def Package.Encodable (p : Package) : Prop := p.HeaderFlags ∧ ∀ r ∈ p.records, r.Encodable

/-- a subrecord with a type code but without content -/
def RecordData.Missing (rd : RecordData) : Prop := rd.SubrecordType ≠ 0 ∧ rd.SubrecordData = none

/-- in the order of writing, the first thing that cannot be written is a subrecord with a type code but without content -/
def Package.MissingFirst (p : Package) : Prop := p.HeaderFlags ∧
  ∃ before r after, p.records = before ++ r :: after ∧ (∀ x ∈ before, x.Encodable) ∧
    ∃ subs rd rest, r.RecordDataSet = subs ++ rd :: rest ∧ (∀ x ∈ subs, x.Encodable) ∧ rd.Missing

end Egts
