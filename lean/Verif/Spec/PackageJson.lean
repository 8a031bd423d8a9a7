import Verif.Spec.Json
import Verif.Spec.Time
import Verif.Model.Json
import Verif.Model.Package
set_option autoImplicit false
/- The JSON document of a package, written down independently of the model of `json.Marshal`: the fields under the abbreviations of the
protocol. -/
namespace Egts

/-- how numbers, instants (nanoseconds since 2010) and byte strings are written -/
structure DocFmt where
  num : F64 → Rat
  num32 : UInt32 → Rat
  time : Int → Bytes
  bin : Bytes → Bytes

/-- value of a character of the base64 alphabet (RFC 4648, table 1) -/
def b64Val (c : UInt8) : Option Nat :=
  if 65 ≤ c.toNat ∧ c.toNat ≤ 90 then some (c.toNat - 65)
  else if 97 ≤ c.toNat ∧ c.toNat ≤ 122 then some (c.toNat - 97 + 26)
  else if 48 ≤ c.toNat ∧ c.toNat ≤ 57 then some (c.toNat - 48 + 52)
  else if c = 43 then some 62
  else if c = 47 then some 63
  else none

/-- the bytes written in base64 (RFC 4648, section 4): four characters for three bytes, padded with = (61) -/
def decode64 : Bytes → Option Bytes
  | [] => some []
  | [a, b, 61, 61] => match b64Val a, b64Val b with
    | some x, some y => some [UInt8.ofNat ((64 * x + y) / 16)]
    | _, _ => none
  | [a, b, c, 61] => match b64Val a, b64Val b, b64Val c with
    | some x, some y, some z =>
      let n := 4096 * x + 64 * y + z
      some [UInt8.ofNat (n / 1024), UInt8.ofNat (n / 4)]
    | _, _, _ => none
  | a :: b :: c :: d :: s => match b64Val a, b64Val b, b64Val c, b64Val d, decode64 s with
    | some x, some y, some z, some w, some r =>
      let n := 262144 * x + 4096 * y + 64 * z + w
      some (UInt8.ofNat (n / 65536) :: UInt8.ofNat (n / 256) :: UInt8.ofNat n :: r)
    | _, _, _, _, _ => none
  | _ => none

/-- years 0 to 9999: RFC 3339 has texts for these instants only -/
def YearOk (ns : Int) : Prop := -63429523200 ≤ ns / 1000000000 ∧ ns / 1000000000 < 252139996800

/-- texts of instants denote them, byte strings can be read back -/
structure DocFmt.Faithful (D : DocFmt) : Prop where
  time : ∀ ns, YearOk ns → DenotesNs (D.time ns) (ns + 1262304000 * 1000000000)
  bin : ∀ s, decode64 (D.bin s) = some s

/-- a byte string: null if there is none -/
def docBytes (D : DocFmt) (s : Bytes) : Json := if s = [] then .null else .str (D.bin s)

/-- document of a `SrPosData` -/
def SrPosData.doc (D : DocFmt) (e : SrPosData) : Json := .obj [
  (asc "NTM", .str (D.time e.NavigationTime)), (asc "LAT", .num (D.num e.Latitude)), (asc "LONG", .num (D.num e.Longitude)),
  (asc "ALTE", jstr e.ALTE), (asc "LOHS", jstr e.LOHS), (asc "LAHS", jstr e.LAHS), (asc "MV", jstr e.MV),
  (asc "BB", jstr e.BB), (asc "CS", jstr e.CS), (asc "FIX", jstr e.FIX), (asc "VLD", jstr e.VLD),
  (asc "DIRH", .num e.DirectionHighestBit.toNat), (asc "ALTS", .num e.AltitudeSign.toNat), (asc "SPD", .num e.Speed.toNat),
  (asc "DIR", .num e.Direction.toNat), (asc "ODM", .num e.Odometer.toNat), (asc "DIN", .num e.DigitalInputs.toNat),
  (asc "SRC", .num e.Source.toNat), (asc "ALT", .num e.Altitude.toNat), (asc "SRCD", .num e.SourceData.toInt16.toInt)]

/-- document of a `SrTermIdentity` -/
def SrTermIdentity.doc (D : DocFmt) (e : SrTermIdentity) : Json := .obj [
  (asc "TID", .num e.TerminalIdentifier.toNat), (asc "MNE", jstr e.MNE), (asc "BSE", jstr e.BSE), (asc "NIDE", jstr e.NIDE),
  (asc "SSRA", jstr e.SSRA), (asc "LNGCE", jstr e.LNGCE), (asc "IMSIE", jstr e.IMSIE), (asc "IMEIE", jstr e.IMEIE),
  (asc "HDIDE", jstr e.HDIDE), (asc "HDID", .num e.HomeDispatcherIdentifier.toNat), (asc "IMEI", jstr e.IMEI),
  (asc "IMSI", jstr e.IMSI), (asc "LNGC", jstr e.LanguageCode), (asc "NID", docBytes D e.NetworkIdentifier),
  (asc "BS", .num e.BufferSize.toNat), (asc "MSISDN", jstr e.MobileNumber)]

/-- document of a `SrResponse` -/
def SrResponse.doc (e : SrResponse) : Json := .obj [
  (asc "CRN", .num e.ConfirmedRecordNumber.toNat), (asc "RST", .num e.RecordStatus.toNat)]

/-- document of a `SrResultCode` -/
def SrResultCode.doc (e : SrResultCode) : Json := .obj [
  (asc "RCD", .num e.ResultCode.toNat)]

/-- document of a `SrExtPosData` -/
def SrExtPosData.doc (e : SrExtPosData) : Json := .obj [
  (asc "NSFE", jstr e.NavigationSystemFieldExists), (asc "SFE", jstr e.SatellitesFieldExists),
  (asc "PFE", jstr e.PdopFieldExists), (asc "HFE", jstr e.HdopFieldExists), (asc "VFE", jstr e.VdopFieldExists),
  (asc "VDOP", .num e.VerticalDilutionOfPrecision.toNat), (asc "HDOP", .num e.HorizontalDilutionOfPrecision.toNat),
  (asc "PDOP", .num e.PositionDilutionOfPrecision.toNat), (asc "SAT", .num e.Satellites.toNat),
  (asc "NS", .num e.NavigationSystem.toNat)]

/-- document of a `SrAdSensorsData` -/
def SrAdSensorsData.doc (e : SrAdSensorsData) : Json := .obj [
  (asc "DIOE1", jstr e.DIOE1), (asc "DIOE2", jstr e.DIOE2), (asc "DIOE3", jstr e.DIOE3), (asc "DIOE4", jstr e.DIOE4),
  (asc "DIOE5", jstr e.DIOE5), (asc "DIOE6", jstr e.DIOE6), (asc "DIOE7", jstr e.DIOE7), (asc "DIOE8", jstr e.DIOE8),
  (asc "DOUT", .num e.DOUT.toNat), (asc "ASFE1", jstr e.ASFE1), (asc "ASFE2", jstr e.ASFE2), (asc "ASFE3", jstr e.ASFE3),
  (asc "ASFE4", jstr e.ASFE4), (asc "ASFE5", jstr e.ASFE5), (asc "ASFE6", jstr e.ASFE6), (asc "ASFE7", jstr e.ASFE7),
  (asc "ASFE8", jstr e.ASFE8), (asc "ADIO1", .num e.ADIO1.toNat), (asc "ADIO2", .num e.ADIO2.toNat),
  (asc "ADIO3", .num e.ADIO3.toNat), (asc "ADIO4", .num e.ADIO4.toNat), (asc "ADIO5", .num e.ADIO5.toNat),
  (asc "ADIO6", .num e.ADIO6.toNat), (asc "ADIO7", .num e.ADIO7.toNat), (asc "ADIO8", .num e.ADIO8.toNat),
  (asc "ANS1", .num e.ANS1.toNat), (asc "ANS2", .num e.ANS2.toNat), (asc "ANS3", .num e.ANS3.toNat),
  (asc "ANS4", .num e.ANS4.toNat), (asc "ANS5", .num e.ANS5.toNat), (asc "ANS6", .num e.ANS6.toNat),
  (asc "ANS7", .num e.ANS7.toNat), (asc "ANS8", .num e.ANS8.toNat)]

/-- document of a `SrStateData` -/
def SrStateData.doc (e : SrStateData) : Json := .obj [
  (asc "ST", .num e.State.toNat), (asc "MPSV", .num e.MainPowerSourceVoltage.toNat),
  (asc "BBV", .num e.BackUpBatteryVoltage.toNat), (asc "IBV", .num e.InternalBatteryVoltage.toNat), (asc "NMS", jstr e.NMS),
  (asc "IBU", jstr e.IBU), (asc "BBU", jstr e.BBU)]

/-- document of a `SrLiquidLevelSensor` -/
def SrLiquidLevelSensor.doc (e : SrLiquidLevelSensor) : Json := .obj [
  (asc "LLSEF", jstr e.LiquidLevelSensorErrorFlag), (asc "LLSVU", jstr e.LiquidLevelSensorValueUnit),
  (asc "RDF", jstr e.RawDataFlag), (asc "LLSN", .num e.LiquidLevelSensorNumber.toNat),
  (asc "MADDR", .num e.ModuleAddress.toNat), (asc "LLSD", .num e.LiquidLevelSensorData.toNat)]

/-- document of a `SrAbsCntrData` -/
def SrAbsCntrData.doc (e : SrAbsCntrData) : Json := .obj [
  (asc "CN", .num e.CounterNumber.toNat), (asc "CNV", .num e.CounterValue.toNat)]

/-- document of a `SrAuthInfo` -/
def SrAuthInfo.doc (e : SrAuthInfo) : Json := .obj [
  (asc "UNM", jstr e.UserName), (asc "UPSW", jstr e.UserPassword), (asc "SS", jstr e.ServerSequence)]

/-- document of a `SrCountersData` -/
def SrCountersData.doc (e : SrCountersData) : Json := .obj [
  (asc "CFE1", jstr e.CFE1), (asc "CFE2", jstr e.CFE2), (asc "CFE3", jstr e.CFE3), (asc "CFE4", jstr e.CFE4),
  (asc "CFE5", jstr e.CFE5), (asc "CFE6", jstr e.CFE6), (asc "CFE7", jstr e.CFE7), (asc "CFE8", jstr e.CFE8),
  (asc "CN1", .num e.CN1.toNat), (asc "CN2", .num e.CN2.toNat), (asc "CN3", .num e.CN3.toNat), (asc "CN4", .num e.CN4.toNat),
  (asc "CN5", .num e.CN5.toNat), (asc "CN6", .num e.CN6.toNat), (asc "CN7", .num e.CN7.toNat), (asc "CN8", .num e.CN8.toNat)]

/-- document of a `SrAbsAnSensData` -/
def SrAbsAnSensData.doc (e : SrAbsAnSensData) : Json := .obj [
  (asc "SensorNumber", .num e.SensorNumber.toNat), (asc "Value", .num e.Value.toNat)]

/-- document of a `SrDispatcherIdentity` -/
def SrDispatcherIdentity.doc (e : SrDispatcherIdentity) : Json := .obj [
  (asc "DT", .num e.DispatcherType.toNat), (asc "DID", .num e.DispatcherID.toNat), (asc "DSCR", jstr e.Description)]

variable [P : Platform]

/-- how EGTS+ messages and empty lists of subrecords (null or []) are written -/
structure DocRest where
  pb : P.PBMsg → Json
  nilRD : ServiceDataRecord → Bool

/-- document of a subrecord -/
def SubData.doc (D : DocFmt) (R : DocRest) : SubData → Json
  | .pos d => d.doc D
  | .term d => d.doc D
  | .response d => d.doc
  | .result d => d.doc
  | .ext d => d.doc
  | .ad d => d.doc
  | .state d => d.doc
  | .liquid d => d.doc
  | .absCntr d => d.doc
  | .auth d => d.doc
  | .counters d => d.doc
  | .storage m => R.pb m
  | .absAn d => d.doc
  | .dispatcher d => d.doc

/-- null, or the document of the value -/
def docOpt {α : Type} (f : α → Json) : Option α → Json
  | none => .null
  | some x => f x

/-- document of a `RecordData` -/
def RecordData.doc (D : DocFmt) (R : DocRest) (e : RecordData) : Json := .obj [
  (asc "SRT", .num e.SubrecordType.toNat), (asc "SRL", .num e.SubrecordLength.toNat), (asc "SRD", docOpt (SubData.doc D R) e.SubrecordData)]

/-- document of a `ServiceDataRecord` -/
def ServiceDataRecord.doc (D : DocFmt) (R : DocRest) (e : ServiceDataRecord) : Json := .obj [
  (asc "RL", .num e.RecordLength.toNat), (asc "RN", .num e.RecordNumber.toNat), (asc "SSOD", jstr e.SourceServiceOnDevice),
  (asc "RSOD", jstr e.RecipientServiceOnDevice), (asc "GRP", jstr e.Group), (asc "RPP", jstr e.RecordProcessingPriority),
  (asc "TMFE", jstr e.TimeFieldExists), (asc "EVFE", jstr e.EventIDFieldExists), (asc "OBFE", jstr e.ObjectIDFieldExists),
  (asc "OID", .num e.ObjectIdentifier.toNat), (asc "EVID", .num e.EventIdentifier.toNat), (asc "TM", .num e.Time.toNat),
  (asc "SST", .num e.SourceServiceType.toNat), (asc "RST", .num e.RecipientServiceType.toNat),
  (asc "RD", if e.RecordDataSet = [] ∧ R.nilRD e then .null else .arr (e.RecordDataSet.map (RecordData.doc D R)))]

/-- document of a `ServiceDataSet` -/
def sdsDoc (D : DocFmt) (R : DocRest) (l : ServiceDataSet) : Json := .arr (l.map (ServiceDataRecord.doc D R))

/-- document of a `PtResponse` -/
def PtResponse.doc (D : DocFmt) (R : DocRest) (e : PtResponse) : Json := .obj [
  (asc "RPID", .num e.ResponsePacketID.toNat), (asc "PR", .num e.ProcessingResult.toNat), (asc "SDR", docOpt (sdsDoc D R) e.SDR)]

/-- document of the frame data -/
def Body.doc (D : DocFmt) (R : DocRest) : Body → Json
  | .appdata s => sdsDoc D R s
  | .response e => e.doc D R

/-- document of a `Package` -/
def Package.doc (D : DocFmt) (R : DocRest) (e : Package) : Json := .obj [
  (asc "PRV", .num e.ProtocolVersion.toNat), (asc "SKID", .num e.SecurityKeyID.toNat), (asc "PRF", jstr e.Prefix),
  (asc "RTE", jstr e.Route), (asc "ENA", jstr e.EncryptionAlg), (asc "CMP", jstr e.Compression), (asc "PR", jstr e.Priority),
  (asc "HL", .num e.HeaderLength.toNat), (asc "HE", .num e.HeaderEncoding.toNat), (asc "FDL", .num e.FrameDataLength.toNat),
  (asc "PID", .num e.PacketIdentifier.toNat), (asc "PT", .num e.PacketType.toNat), (asc "PRA", .num e.PeerAddress.toNat),
  (asc "RCA", .num e.RecipientAddress.toNat), (asc "TTL", .num e.TimeToLive.toNat), (asc "HCS", .num e.HeaderCheckSum.toNat),
  (asc "SFRD", docOpt (Body.doc D R) e.ServicesFrameData), (asc "SFRCS", .num e.ServicesFrameDataCheckSum.toNat)]

end Egts
