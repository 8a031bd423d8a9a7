import Verif.Model.Server
import Verif.Model.Storage
import Verif.Lemmas.KernelRfl
set_option autoImplicit false
/- Tests of the model, not proofs of properties: the test vectors of the repository (libs/egts/*_test.go,
cli/receiver/server/server_test.go), evaluated by the kernel in the model. They tie the model to the behaviour that the
repository's own tests pin down. `testPlatform` is a stand-in for the parameters of the model, none of which matters here. -/
namespace Egts.GoTests

/-- no protobuf; conversions out of range give 0 -/
@[reducible] def testPlatform : Platform where
  PBMsg := Unit
  pbEmpty := ()
  pbUnmarshal _ := none
  pbMarshal _ := none
  f2u32OutOfRange _ := 0

attribute [local instance] testPlatform

/-- the bytes returned by Package.Encode -/
def outBytes : Go (Bytes × Package) → Option Bytes
  | .ok (b, _) => some b
  | .err _ => none
  | .panic => none

/-- crc_test.go:8-13 -/
example : crc8 (asc "123456789") = 0xF7 := by kernel_rfl
/-- crc_test.go:15-20 -/
example : crc16 (asc "123456789") = 0x29b1 := by kernel_rfl

/-- egts_sr_abs_cntr_data_test.go -/
example : SrAbsCntrData.encode { CounterNumber := 6, CounterValue := 7347573 } = .ok [6, 117, 29, 112] := by kernel_rfl
example : SrAbsCntrData.decode {} [6, 117, 29, 112] = .ok { CounterNumber := 6, CounterValue := 7347573 } := by kernel_rfl

/-- egts_sr_abs_an_sensors_data_test.go -/
example : SrAbsAnSensData.encode { SensorNumber := 0x98, Value := 0x123456 } = .ok [152, 86, 52, 18] := by kernel_rfl
example : SrAbsAnSensData.decode {} [152, 86, 52, 18] = .ok { SensorNumber := 0x98, Value := 0x123456 } := by kernel_rfl

/-- egts_sr_ad_sensors_data_test.go -/
def ad : SrAdSensorsData := {
  DIOE1 := [49], DIOE2 := [48], DIOE3 := [48], DIOE4 := [48], DIOE5 := [48], DIOE6 := [48], DIOE7 := [48], DIOE8 := [48]
  DOUT := 15
  ASFE1 := [49], ASFE2 := [49], ASFE3 := [49], ASFE4 := [49], ASFE5 := [49], ASFE6 := [49], ASFE7 := [49], ASFE8 := [49] }
example : ad.encode = .ok [1, 15, 255, 0, 0, 0, 0, 0, 0, 0, 0, 0, 0, 0, 0, 0, 0, 0, 0, 0, 0, 0, 0, 0, 0, 0, 0, 0] := by kernel_rfl
example : SrAdSensorsData.decode {} [1, 15, 255, 0, 0, 0, 0, 0, 0, 0, 0, 0, 0, 0, 0, 0, 0, 0, 0, 0, 0, 0, 0, 0, 0, 0, 0, 0] = .ok ad := by kernel_rfl

/-- egts_sr_counters_data_test.go -/
def counters : SrCountersData := {
  CFE1 := [48], CFE2 := [48], CFE3 := [48], CFE4 := [48], CFE5 := [48], CFE6 := [48], CFE7 := [49], CFE8 := [49]
  CN8 := 3 }
example : counters.encode = .ok [192, 0, 0, 0, 3, 0, 0] := by kernel_rfl
example : SrCountersData.decode {} [192, 0, 0, 0, 3, 0, 0] = .ok counters := by kernel_rfl

/-- egts_sr_ext_pos_data_test.go -/
def ext : SrExtPosData := {
  NavigationSystemFieldExists := [48], SatellitesFieldExists := [49], PdopFieldExists := [49], HdopFieldExists := [49]
  VdopFieldExists := [48], HorizontalDilutionOfPrecision := 50, PositionDilutionOfPrecision := 0, Satellites := 12 }
example : ext.encode = .ok [14, 50, 0, 0, 0, 12] := by kernel_rfl
example : SrExtPosData.decode {} [14, 50, 0, 0, 0, 12] = .ok ext := by kernel_rfl

/-- egts_sr_liquid_level_sensor_test.go -/
def liquid : SrLiquidLevelSensor := {
  LiquidLevelSensorErrorFlag := [48], LiquidLevelSensorValueUnit := [48, 48], RawDataFlag := [48]
  LiquidLevelSensorNumber := 3, ModuleAddress := 1, LiquidLevelSensorData := 0 }
example : liquid.encode = .ok [3, 1, 0, 0, 0, 0, 0] := by kernel_rfl
example : SrLiquidLevelSensor.decode {} [3, 1, 0, 0, 0, 0, 0] = .ok liquid := by kernel_rfl

/-- egts_sr_state_data_test.go -/
def state : SrStateData := {
  State := 2, MainPowerSourceVoltage := 127, BackUpBatteryVoltage := 0, InternalBatteryVoltage := 41
  NMS := [49], IBU := [48], BBU := [48] }
example : state.encode = .ok [2, 127, 0, 41, 4] := by kernel_rfl
example : SrStateData.decode {} [2, 127, 0, 41, 4] = .ok state := by kernel_rfl

/-- egts_sr_pos_data_test.go; the decimal literals of the test are the nearest float64 -/
def pos : SrPosData := {
  NavigationTime := 268603733 * 1000000000
  Latitude := rnd (5555389399769574 / 100000000000000)
  Longitude := rnd (3743236696287812 / 100000000000000)
  ALTE := [48], LOHS := [48], LAHS := [48], MV := [48], BB := [48], CS := [48], FIX := [48], VLD := [49]
  DirectionHighestBit := 1, AltitudeSign := 0, Speed := 200, Direction := 172, Odometer := 1, DigitalInputs := 0, Source := 0 }
example : rfc3339 (unixOf pos.NavigationTime) = asc "2018-07-06T20:08:53Z" := by kernel_rfl
example : pos.encode = .ok [85, 145, 2, 16, 111, 28, 5, 158, 122, 181, 60, 53, 1, 208, 135, 44, 1, 0, 0, 0, 0] := by kernel_rfl
example : SrPosData.decode {} [85, 145, 2, 16, 111, 28, 5, 158, 122, 181, 60, 53, 1, 208, 135, 44, 1, 0, 0, 0, 0] = .ok pos := by kernel_rfl

/-- egts_sr_term_identity_test.go -/
def term : SrTermIdentity := {
  TerminalIdentifier := 133552
  MNE := [48], BSE := [48], NIDE := [48], SSRA := [49], LNGCE := [48], IMSIE := [48], IMEIE := [48], HDIDE := [48] }
example : term.encode = .ok [176, 9, 2, 0, 16] := by kernel_rfl
example : SrTermIdentity.decode {} [176, 9, 2, 0, 16] = .ok term := by kernel_rfl

/-- testEgtsSrTermIdentityPkg, egts_sr_term_identity_test.go -/
def termPkg : Package := {
  ProtocolVersion := 1, SecurityKeyID := 0, Prefix := [48, 48], Route := [48], EncryptionAlg := [48, 48], Compression := [48]
  Priority := [49, 49], HeaderLength := 11, HeaderEncoding := 0, FrameDataLength := 19, PacketIdentifier := 134, PacketType := 1
  HeaderCheckSum := 182
  ServicesFrameData := some (.appdata [{
    RecordLength := 8, RecordNumber := 95, SourceServiceOnDevice := [49], RecipientServiceOnDevice := [48], Group := [48]
    RecordProcessingPriority := [49, 49], TimeFieldExists := [48], EventIDFieldExists := [48], ObjectIDFieldExists := [49]
    ObjectIdentifier := 2, SourceServiceType := 1, RecipientServiceType := 1
    RecordDataSet := [⟨1, 5, some (.term term)⟩] }])
  ServicesFrameDataCheckSum := 52749 }
example : outBytes termPkg.encode = some [1, 0, 3, 11, 0, 19, 0, 134, 0, 1, 182, 8, 0, 95, 0, 153, 2, 0, 0, 0, 1, 1, 1, 5, 0, 176, 9, 2, 0, 16, 13, 206] := by kernel_rfl
example : Package.decode {} [1, 0, 3, 11, 0, 19, 0, 134, 0, 1, 182, 8, 0, 95, 0, 153, 2, 0, 0, 0, 1, 1, 1, 5, 0, 176, 9, 2, 0, 16, 13, 206] [] = .ret 0 none termPkg := by kernel_rfl

/-- testAuthInfoPkg, egts_sr_auth_info_test.go -/
def authPkg : Package := {
  ProtocolVersion := 1, SecurityKeyID := 0, Prefix := [48, 48], Route := [48], EncryptionAlg := [48, 48], Compression := [48]
  Priority := [48, 49], HeaderLength := 11, HeaderEncoding := 0, FrameDataLength := 51, PacketIdentifier := 1, PacketType := 1
  HeaderCheckSum := 234
  ServicesFrameData := some (.appdata [{
    RecordLength := 40, RecordNumber := 0, SourceServiceOnDevice := [48], RecipientServiceOnDevice := [48], Group := [48]
    RecordProcessingPriority := [48, 49], TimeFieldExists := [49], EventIDFieldExists := [48], ObjectIDFieldExists := [48]
    Time := 286365764, SourceServiceType := 1, RecipientServiceType := 1
    RecordDataSet := [⟨7, 37, some (.auth { UserName := asc "800", UserPassword := asc "EF284E7AE351D6DF92CE323D74AD2EB3" })⟩] }])
  ServicesFrameDataCheckSum := 24978 }
example : outBytes authPkg.encode = some [1, 0, 1, 11, 0, 51, 0, 1, 0, 1, 234, 40, 0, 0, 0, 12, 68, 152, 17, 17, 1, 1, 7, 37, 0, 56, 48, 48, 0, 69, 70, 50, 56, 52, 69, 55, 65, 69, 51, 53, 49, 68, 54, 68, 70, 57, 50, 67, 69, 51, 50, 51, 68, 55, 52, 65, 68, 50, 69, 66, 51, 0, 146, 97] := by kernel_rfl
example : Package.decode {} [1, 0, 1, 11, 0, 51, 0, 1, 0, 1, 234, 40, 0, 0, 0, 12, 68, 152, 17, 17, 1, 1, 7, 37, 0, 56, 48, 48, 0, 69, 70, 50, 56, 52, 69, 55, 65, 69, 51, 53, 49, 68, 54, 68, 70, 57, 50, 67, 69, 51, 50, 51, 68, 55, 52, 65, 68, 50, 69, 66, 51, 0, 146, 97] [] = .ret 0 none authPkg := by kernel_rfl

/-- testDispatcherIdentityPkg, egts_sr_dispatcher_identity_test.go -/
def dispPkg : Package := {
  ProtocolVersion := 1, SecurityKeyID := 0, Prefix := [48, 48], Route := [48], EncryptionAlg := [48, 48], Compression := [48]
  Priority := [48, 48], HeaderLength := 11, HeaderEncoding := 0, FrameDataLength := 15, PacketIdentifier := 1, PacketType := 1
  HeaderCheckSum := 6
  ServicesFrameData := some (.appdata [{
    RecordLength := 8, SourceServiceOnDevice := [49], RecipientServiceOnDevice := [48], Group := [48]
    RecordProcessingPriority := [49, 49], TimeFieldExists := [48], EventIDFieldExists := [48], ObjectIDFieldExists := [48]
    SourceServiceType := 1, RecipientServiceType := 1
    RecordDataSet := [⟨5, 5, some (.dispatcher { DispatcherType := 0, DispatcherID := 71 })⟩] }])
  ServicesFrameDataCheckSum := 40273 }
example : outBytes dispPkg.encode = some [1, 0, 0, 11, 0, 15, 0, 1, 0, 1, 6, 8, 0, 0, 0, 152, 1, 1, 5, 5, 0, 0, 71, 0, 0, 0, 81, 157] := by kernel_rfl
example : Package.decode {} [1, 0, 0, 11, 0, 15, 0, 1, 0, 1, 6, 8, 0, 0, 0, 152, 1, 1, 5, 5, 0, 0, 71, 0, 0, 0, 81, 157] [] = .ret 0 none dispPkg := by kernel_rfl

/-- egtsPkgResp, egts_pt_response_test.go -/
def respPkg : Package := {
  ProtocolVersion := 1, SecurityKeyID := 0, Prefix := [48, 48], Route := [48], EncryptionAlg := [48, 48], Compression := [48]
  Priority := [49, 49], HeaderLength := 11, HeaderEncoding := 0, FrameDataLength := 3, PacketIdentifier := 137, PacketType := 0
  HeaderCheckSum := 74
  ServicesFrameData := some (.response { ResponsePacketID := 14357, ProcessingResult := 0 })
  ServicesFrameDataCheckSum := 59443 }
example : outBytes respPkg.encode = some [1, 0, 3, 11, 0, 3, 0, 137, 0, 0, 74, 21, 56, 0, 51, 232] := by kernel_rfl
example : Package.decode {} [1, 0, 3, 11, 0, 3, 0, 137, 0, 0, 74, 21, 56, 0, 51, 232] [] = .ret 0 none respPkg := by kernel_rfl

/-- egtsPkgSrResp, egts_sr_response_test.go -/
def srRespPkg : Package := {
  ProtocolVersion := 1, SecurityKeyID := 0, Prefix := [48, 48], Route := [48], EncryptionAlg := [48, 48], Compression := [48]
  Priority := [48, 48], HeaderLength := 11, HeaderEncoding := 0, FrameDataLength := 16, PacketIdentifier := 134, PacketType := 0
  HeaderCheckSum := 24
  ServicesFrameData := some (.response { ResponsePacketID := 134, ProcessingResult := 0, SDR := some [{
    RecordLength := 6, RecordNumber := 95, SourceServiceOnDevice := [48], RecipientServiceOnDevice := [48], Group := [49]
    RecordProcessingPriority := [48, 48], TimeFieldExists := [48], EventIDFieldExists := [48], ObjectIDFieldExists := [48]
    SourceServiceType := 1, RecipientServiceType := 1
    RecordDataSet := [⟨0, 3, some (.response { ConfirmedRecordNumber := 95, RecordStatus := 0 })⟩] }] })
  ServicesFrameDataCheckSum := 29459 }
example : outBytes srRespPkg.encode = some [1, 0, 0, 11, 0, 16, 0, 134, 0, 0, 24, 134, 0, 0, 6, 0, 95, 0, 32, 1, 1, 0, 3, 0, 95, 0, 0, 19, 115] := by kernel_rfl
example : Package.decode {} [1, 0, 0, 11, 0, 16, 0, 134, 0, 0, 24, 134, 0, 0, 6, 0, 95, 0, 32, 1, 1, 0, 3, 0, 95, 0, 0, 19, 115] [] = .ret 0 none srRespPkg := by kernel_rfl

/-- egtsPkgSrResCode, egts_sr_result_code_test.go -/
def resCodePkg : Package := {
  ProtocolVersion := 1, SecurityKeyID := 0, Prefix := [48, 48], Route := [48], EncryptionAlg := [48, 48], Compression := [48]
  Priority := [48, 48], HeaderLength := 11, HeaderEncoding := 0, FrameDataLength := 11, PacketIdentifier := 14357, PacketType := 1
  HeaderCheckSum := 17
  ServicesFrameData := some (.appdata [{
    RecordLength := 4, RecordNumber := 14357, SourceServiceOnDevice := [48], RecipientServiceOnDevice := [48], Group := [49]
    RecordProcessingPriority := [48, 48], TimeFieldExists := [48], EventIDFieldExists := [48], ObjectIDFieldExists := [48]
    SourceServiceType := 1, RecipientServiceType := 1
    RecordDataSet := [⟨9, 1, some (.result { ResultCode := 0 })⟩] }])
  ServicesFrameDataCheckSum := 48188 }
example : outBytes resCodePkg.encode = some [1, 0, 0, 11, 0, 11, 0, 21, 56, 1, 17, 4, 0, 21, 56, 32, 1, 1, 9, 1, 0, 0, 60, 188] := by kernel_rfl
example : Package.decode {} [1, 0, 0, 11, 0, 11, 0, 21, 56, 1, 17, 4, 0, 21, 56, 32, 1, 1, 9, 1, 0, 0, 60, 188] [] = .ret 0 none resCodePkg := by kernel_rfl

/-- egts_pkg_test.go:15-75: Encode fills in the omitted type, lengths and header length -/
def posPkgIn : Package := {
  ProtocolVersion := 1, SecurityKeyID := 0, Prefix := [48, 48], Route := [48], EncryptionAlg := [48, 48], Compression := [48]
  Priority := [49, 49], HeaderEncoding := 0, FrameDataLength := 35, PacketIdentifier := 138, PacketType := 1, HeaderCheckSum := 73
  ServicesFrameData := some (.appdata [{
    RecordNumber := 97, SourceServiceOnDevice := [49], RecipientServiceOnDevice := [48], Group := [48]
    RecordProcessingPriority := [49, 49], TimeFieldExists := [48], EventIDFieldExists := [48], ObjectIDFieldExists := [49]
    ObjectIdentifier := 133552, SourceServiceType := 2, RecipientServiceType := 2
    RecordDataSet := [⟨0, 0, some (.pos { pos with NavigationTime := 268517333 * 1000000000 })⟩] }]) }
example : outBytes posPkgIn.encode = some [1, 0, 3, 11, 0, 35, 0, 138, 0, 1, 73, 24, 0, 97, 0, 153, 176, 9, 2, 0, 2, 2, 16, 21, 0, 213, 63, 1, 16, 111, 28, 5, 158, 122, 181, 60, 53, 1, 208, 135, 44, 1, 0, 0, 0, 0, 204, 39] := by kernel_rfl
/-- egts_pkg_test.go:77-140 -/
def posPkg : Package := {
  posPkgIn with
  HeaderLength := 11
  ServicesFrameData := some (.appdata [{
    RecordLength := 24
    RecordNumber := 97, SourceServiceOnDevice := [49], RecipientServiceOnDevice := [48], Group := [48]
    RecordProcessingPriority := [49, 49], TimeFieldExists := [48], EventIDFieldExists := [48], ObjectIDFieldExists := [49]
    ObjectIdentifier := 133552, SourceServiceType := 2, RecipientServiceType := 2
    RecordDataSet := [⟨16, 21, some (.pos { pos with NavigationTime := 268517333 * 1000000000 })⟩] }])
  ServicesFrameDataCheckSum := 10188 }
example : Package.decode {} [1, 0, 3, 11, 0, 35, 0, 138, 0, 1, 73, 24, 0, 97, 0, 153, 176, 9, 2, 0, 2, 2, 16, 21, 0, 213, 63, 1, 16, 111, 28, 5, 158, 122, 181, 60, 53, 1, 208, 135, 44, 1, 0, 0, 0, 0, 204, 39] [] = .ret 0 none posPkg := by kernel_rfl

/-- server_test.go:11-57: one packet, its answer, and one saved record -/
def message : Bytes := [1, 0, 0, 11, 0, 177, 0, 232, 4, 1, 78, 166, 0, 161, 10, 129, 52, 246, 233, 1, 2, 2, 16, 26, 0, 79, 95, 229, 16, 0, 190, 205, 158, 128, 127, 139, 53, 147, 155, 128, 47, 249, 128, 2, 1, 0, 146, 0, 0, 0, 0, 17, 6, 0, 14, 70, 0, 0, 0, 12, 18, 28, 0, 1, 15, 255, 1, 68, 109, 0, 184, 0, 0, 11, 1, 0, 0, 0, 0, 0, 0, 0, 0, 0, 0, 0, 0, 0, 0, 0, 0, 20, 5, 0, 2, 255, 0, 41, 4, 27, 7, 0, 0, 255, 0, 0, 0, 0, 0, 27, 7, 0, 2, 0, 0, 0, 0, 0, 0, 27, 7, 0, 3, 1, 0, 90, 8, 0, 0, 27, 7, 0, 4, 2, 0, 0, 0, 0, 0, 25, 4, 0, 100, 119, 42, 4, 25, 4, 0, 101, 0, 0, 0, 25, 4, 0, 102, 1, 0, 0, 25, 4, 0, 103, 119, 42, 4, 25, 4, 0, 104, 119, 42, 4, 25, 4, 0, 105, 79, 154, 34, 25, 4, 0, 110, 119, 42, 4, 65, 246]
def response : Bytes := [1, 0, 0, 11, 0, 16, 0, 233, 4, 0, 161, 232, 4, 0, 6, 0, 1, 0, 32, 2, 2, 0, 3, 0, 161, 10, 0, 94, 182]
def kinds : Effect → Option Bytes
  | .write b => some b
  | .save _ => none
set_option maxRecDepth 100000 in
example : (handleConn ⟨fun _ => [], fun _ => []⟩ true .silent [message]).1.map kinds = [none, some response] := by kernel_rfl

end Egts.GoTests
