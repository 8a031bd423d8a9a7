import Verif.Model.JsonText
import Verif.Model.Package
import Verif.Model.StorageRecord
set_option autoImplicit false
/- Model of `(*Package).ToBytes`, libs/egts/egts_pkg.go:227-230 (`json.Marshal` of the package: structs as objects with the members
in the order of the fields and the names of the `json` tags; nil pointers, interfaces and slices as null; byte slices in base64;
`time.Time` by its `MarshalJSON`; `omitempty`; an error for floats that are not finite and for years outside 0..9999).
Simplifications: float64 values are finite (as everywhere in the model); times are in UTC (as the ones made by `Decode`); an empty
byte slice is a nil slice; a `ServiceDataSet` is not a nil slice; whether an empty `RecordDataSet` is nil (null) or not ([]) is a
parameter. The members of the objects were written by a script from the struct definitions. -/
namespace Egts

/-- Go values as `encoding/json` distinguishes them (Go library, as called by libs/egts/egts_pkg.go:227-230) -/
inductive GoVal where
  | nul
  | bool (b : Bool)
  | int (n : Int)
  | flt (x : F64)
  | f32 (bits : UInt32)
  | str (s : Bytes)
  | b64 (s : Bytes)
  | time (ns : Int)
  | arr (l : List GoVal)
  | obj (m : List (Bytes × GoVal))

/-- what is left open: see `JsonFmt`; and the formatting of float32 values (given by their bits) -/
structure PkgFmt extends JsonFmt where
  float32 : UInt32 → Bytes

/-- a float32 with these bits is neither infinite nor NaN -/
def f32Finite (bits : UInt32) : Bool := bits.toNat / 8388608 % 256 != 255

/-- alphabet of `base64.StdEncoding` -/
def b64Digit (n : Nat) : UInt8 := (asc "ABCDEFGHIJKLMNOPQRSTUVWXYZabcdefghijklmnopqrstuvwxyz0123456789+/").getD n 0

/-- `base64.StdEncoding` with padding -/
def base64 : Bytes → Bytes
  | [] => []
  | [a] => [b64Digit (a.toNat / 4), b64Digit (a.toNat % 4 * 16), 61, 61]
  | [a, b] => [b64Digit (a.toNat / 4), b64Digit (a.toNat % 4 * 16 + b.toNat / 16), b64Digit (b.toNat % 16 * 4), 61]
  | a :: b :: c :: s => [b64Digit (a.toNat / 4), b64Digit (a.toNat % 4 * 16 + b.toNat / 16),
      b64Digit (b.toNat % 16 * 4 + c.toNat / 64), b64Digit (c.toNat % 64)] ++ base64 s

/-- trailing zeros removed (Go library, as called by libs/egts/egts_pkg.go:227-230) -/
def trimZeros (s : Bytes) : Bytes := (s.reverse.dropWhile (· == 48)).reverse

/-- fraction of a second in RFC3339Nano: no trailing zeros, nothing for 0 -/
def fracText (ns : Nat) : Bytes := if ns = 0 then [] else 46 :: trimZeros (digits 9 ns)

/-- `time.Time.MarshalJSON` without the quotation marks: RFC3339Nano, for an instant in nanoseconds since 2010 (as
`SrPosData.NavigationTime`), an error for years outside 0..9999 (-719528 and 2932896 are the days 0000-01-01 and 9999-12-31; dates
repeat after 2000 years, which are 730485 days). -/
def timeText (ns : Int) : Option Bytes :=
  let u := unixOf ns
  let day := u / 86400
  let t := (u % 86400).toNat
  let (y, m, d) := civil (day + 730485).toNat
  if -719528 ≤ day ∧ day ≤ 2932896 then
    some (digits 4 (y - 2000) ++ [45] ++ digits 2 m ++ [45] ++ digits 2 d ++ [84] ++ digits 2 (t / 3600) ++ [58] ++
      digits 2 (t / 60 % 60) ++ [58] ++ digits 2 (t % 60) ++ fracText (ns % 1000000000).toNat ++ [90])
  else none

mutual
/-- the text of a value; `none` is the error of `json.Marshal` (Go library, as called by libs/egts/egts_pkg.go:227-230) -/
def GoVal.text (F : PkgFmt) : GoVal → Option Bytes
  | .nul => some (asc "null")
  | .bool b => some (if b then asc "true" else asc "false")
  | .int n => some (intText n)
  | .flt x => some (F.float x)
  | .f32 b => if f32Finite b then some (F.float32 b) else none
  | .str s => some (quoteText F.toJsonFmt s)
  | .b64 s => some ([34] ++ base64 s ++ [34])
  | .time ns => (timeText ns).map fun t => [34] ++ t ++ [34]
  | .arr l => (GoVal.texts F l).map fun ts => [91] ++ commaSep ts ++ [93]
  | .obj m => (GoVal.members F m).map objText
/-- the texts of the elements (Go library, as called by libs/egts/egts_pkg.go:227-230) -/
def GoVal.texts (F : PkgFmt) : List GoVal → Option (List Bytes)
  | [] => some []
  | v :: l => match GoVal.text F v, GoVal.texts F l with
    | some t, some ts => some (t :: ts)
    | _, _ => none
/-- the texts of the members (Go library, as called by libs/egts/egts_pkg.go:227-230) -/
def GoVal.members (F : PkgFmt) : List (Bytes × GoVal) → Option (List (Bytes × Bytes))
  | [] => some []
  | (k, v) :: l => match GoVal.text F v, GoVal.members F l with
    | some t, some ts => some ((k, t) :: ts)
    | _, _ => none
end

/-- a byte slice (Go library, as called by libs/egts/egts_pkg.go:227-230) -/
def bytesVal (s : Bytes) : GoVal := if s = [] then .nul else .b64 s

/-- `int16` as a number -/
def signed16 (x : UInt16) : Int := if x.toNat < 32768 then x.toNat else x.toNat - 65536

/-- an object whose members are all `omitempty`: those that are not empty (Go library, as called by libs/egts/egts_pkg.go:227-230) -/
def present (m : List (Bytes × Option GoVal)) : GoVal := .obj (m.filterMap fun kv => kv.2.map fun v => (kv.1, v))

/-- an `omitempty` byte slice (Go library, as called by libs/egts/egts_pkg.go:227-230) -/
def nonEmpty (s : Option Bytes) : Option GoVal := match s with
  | some (a :: t) => some (.b64 (a :: t))
  | _ => none

/-- an `omitempty` slice (Go library, as called by libs/egts/egts_pkg.go:227-230) -/
def sliceVal {α : Type} (f : α → GoVal) (l : List α) : Option GoVal := if l.isEmpty then none else some (.arr (l.map f))

/-- tags of `SrPosData`, egts_sr_pos_data.go:13-34 -/
def SrPosData.goVal (e : SrPosData) : GoVal := .obj [
  (asc "NTM", .time e.NavigationTime), (asc "LAT", .flt e.Latitude), (asc "LONG", .flt e.Longitude), (asc "ALTE", .str e.ALTE),
  (asc "LOHS", .str e.LOHS), (asc "LAHS", .str e.LAHS), (asc "MV", .str e.MV), (asc "BB", .str e.BB), (asc "CS", .str e.CS),
  (asc "FIX", .str e.FIX), (asc "VLD", .str e.VLD), (asc "DIRH", .int e.DirectionHighestBit.toNat),
  (asc "ALTS", .int e.AltitudeSign.toNat), (asc "SPD", .int e.Speed.toNat), (asc "DIR", .int e.Direction.toNat),
  (asc "ODM", .int e.Odometer.toNat), (asc "DIN", .int e.DigitalInputs.toNat), (asc "SRC", .int e.Source.toNat),
  (asc "ALT", .int e.Altitude.toNat), (asc "SRCD", .int (signed16 e.SourceData))]

/-- tags of `SrTermIdentity`, egts_sr_term_identity.go:12-29 -/
def SrTermIdentity.goVal (e : SrTermIdentity) : GoVal := .obj [
  (asc "TID", .int e.TerminalIdentifier.toNat), (asc "MNE", .str e.MNE), (asc "BSE", .str e.BSE), (asc "NIDE", .str e.NIDE),
  (asc "SSRA", .str e.SSRA), (asc "LNGCE", .str e.LNGCE), (asc "IMSIE", .str e.IMSIE), (asc "IMEIE", .str e.IMEIE),
  (asc "HDIDE", .str e.HDIDE), (asc "HDID", .int e.HomeDispatcherIdentifier.toNat), (asc "IMEI", .str e.IMEI),
  (asc "IMSI", .str e.IMSI), (asc "LNGC", .str e.LanguageCode), (asc "NID", bytesVal e.NetworkIdentifier),
  (asc "BS", .int e.BufferSize.toNat), (asc "MSISDN", .str e.MobileNumber)]

/-- tags of `SrResponse`, egts_sr_response.go:11-14 -/
def SrResponse.goVal (e : SrResponse) : GoVal := .obj [
  (asc "CRN", .int e.ConfirmedRecordNumber.toNat), (asc "RST", .int e.RecordStatus.toNat)]

/-- tags of `SrResultCode`, egts_sr_result_code.go:10-12 -/
def SrResultCode.goVal (e : SrResultCode) : GoVal := .obj [
  (asc "RCD", .int e.ResultCode.toNat)]

/-- tags of `SrExtPosData`, egts_sr_ext_pos_data.go:12-23 -/
def SrExtPosData.goVal (e : SrExtPosData) : GoVal := .obj [
  (asc "NSFE", .str e.NavigationSystemFieldExists), (asc "SFE", .str e.SatellitesFieldExists),
  (asc "PFE", .str e.PdopFieldExists), (asc "HFE", .str e.HdopFieldExists), (asc "VFE", .str e.VdopFieldExists),
  (asc "VDOP", .int e.VerticalDilutionOfPrecision.toNat), (asc "HDOP", .int e.HorizontalDilutionOfPrecision.toNat),
  (asc "PDOP", .int e.PositionDilutionOfPrecision.toNat), (asc "SAT", .int e.Satellites.toNat),
  (asc "NS", .int e.NavigationSystem.toNat)]

/-- tags of `SrAdSensorsData`, egts_sr_ad_sensors_data.go:13-47 -/
def SrAdSensorsData.goVal (e : SrAdSensorsData) : GoVal := .obj [
  (asc "DIOE1", .str e.DIOE1), (asc "DIOE2", .str e.DIOE2), (asc "DIOE3", .str e.DIOE3), (asc "DIOE4", .str e.DIOE4),
  (asc "DIOE5", .str e.DIOE5), (asc "DIOE6", .str e.DIOE6), (asc "DIOE7", .str e.DIOE7), (asc "DIOE8", .str e.DIOE8),
  (asc "DOUT", .int e.DOUT.toNat), (asc "ASFE1", .str e.ASFE1), (asc "ASFE2", .str e.ASFE2), (asc "ASFE3", .str e.ASFE3),
  (asc "ASFE4", .str e.ASFE4), (asc "ASFE5", .str e.ASFE5), (asc "ASFE6", .str e.ASFE6), (asc "ASFE7", .str e.ASFE7),
  (asc "ASFE8", .str e.ASFE8), (asc "ADIO1", .int e.ADIO1.toNat), (asc "ADIO2", .int e.ADIO2.toNat),
  (asc "ADIO3", .int e.ADIO3.toNat), (asc "ADIO4", .int e.ADIO4.toNat), (asc "ADIO5", .int e.ADIO5.toNat),
  (asc "ADIO6", .int e.ADIO6.toNat), (asc "ADIO7", .int e.ADIO7.toNat), (asc "ADIO8", .int e.ADIO8.toNat),
  (asc "ANS1", .int e.ANS1.toNat), (asc "ANS2", .int e.ANS2.toNat), (asc "ANS3", .int e.ANS3.toNat),
  (asc "ANS4", .int e.ANS4.toNat), (asc "ANS5", .int e.ANS5.toNat), (asc "ANS6", .int e.ANS6.toNat),
  (asc "ANS7", .int e.ANS7.toNat), (asc "ANS8", .int e.ANS8.toNat)]

/-- tags of `SrStateData`, egts_sr_state_data.go:12-20 -/
def SrStateData.goVal (e : SrStateData) : GoVal := .obj [
  (asc "ST", .int e.State.toNat), (asc "MPSV", .int e.MainPowerSourceVoltage.toNat),
  (asc "BBV", .int e.BackUpBatteryVoltage.toNat), (asc "IBV", .int e.InternalBatteryVoltage.toNat), (asc "NMS", .str e.NMS),
  (asc "IBU", .str e.IBU), (asc "BBU", .str e.BBU)]

/-- tags of `SrLiquidLevelSensor`, egts_sr_liquid_level_sensor.go:12-19 -/
def SrLiquidLevelSensor.goVal (e : SrLiquidLevelSensor) : GoVal := .obj [
  (asc "LLSEF", .str e.LiquidLevelSensorErrorFlag), (asc "LLSVU", .str e.LiquidLevelSensorValueUnit),
  (asc "RDF", .str e.RawDataFlag), (asc "LLSN", .int e.LiquidLevelSensorNumber.toNat),
  (asc "MADDR", .int e.ModuleAddress.toNat), (asc "LLSD", .int e.LiquidLevelSensorData.toNat)]

/-- tags of `SrAbsCntrData`, egts_sr_abs_cntr_data.go:12-15 -/
def SrAbsCntrData.goVal (e : SrAbsCntrData) : GoVal := .obj [
  (asc "CN", .int e.CounterNumber.toNat), (asc "CNV", .int e.CounterValue.toNat)]

/-- tags of `SrAuthInfo`, egts_sr_auth_info.go:12-16 -/
def SrAuthInfo.goVal (e : SrAuthInfo) : GoVal := .obj [
  (asc "UNM", .str e.UserName), (asc "UPSW", .str e.UserPassword), (asc "SS", .str e.ServerSequence)]

/-- tags of `SrCountersData`, egts_sr_counters_data.go:12-29 -/
def SrCountersData.goVal (e : SrCountersData) : GoVal := .obj [
  (asc "CFE1", .str e.CFE1), (asc "CFE2", .str e.CFE2), (asc "CFE3", .str e.CFE3), (asc "CFE4", .str e.CFE4),
  (asc "CFE5", .str e.CFE5), (asc "CFE6", .str e.CFE6), (asc "CFE7", .str e.CFE7), (asc "CFE8", .str e.CFE8),
  (asc "CN1", .int e.CN1.toNat), (asc "CN2", .int e.CN2.toNat), (asc "CN3", .int e.CN3.toNat), (asc "CN4", .int e.CN4.toNat),
  (asc "CN5", .int e.CN5.toNat), (asc "CN6", .int e.CN6.toNat), (asc "CN7", .int e.CN7.toNat), (asc "CN8", .int e.CN8.toNat)]

/-- tags of `SrAbsAnSensData`, egts_sr_abs_an_sensors_data.go:10-13 -/
def SrAbsAnSensData.goVal (e : SrAbsAnSensData) : GoVal := .obj [
  (asc "SensorNumber", .int e.SensorNumber.toNat), (asc "Value", .int e.Value.toNat)]

/-- tags of `SrDispatcherIdentity`, egts_sr_dispatcher_identity.go:12-16 -/
def SrDispatcherIdentity.goVal (e : SrDispatcherIdentity) : GoVal := .obj [
  (asc "DT", .int e.DispatcherType.toNat), (asc "DID", .int e.DispatcherID.toNat), (asc "DSCR", .str e.Description)]


/-- tags of `SensAccelerometerData`, egts_sr_egtsplus_data.go:421-430 -/
def SensAccelerometerData.goVal (m : SensAccelerometerData) : GoVal := present [
  (asc "sens_num", m.SensNum.map fun v => .int v.toNat), (asc "buf", nonEmpty m.Buf),
  (asc "atm", m.Atm.map fun v => .int v.toNat), (asc "frequency", m.Frequency.map fun v => .int v.toNat),
  (asc "range", m.Range.map fun v => .int v.toNat), (asc "format", m.Format.map fun v => .int v.toNat),
  (asc "zlib", m.Zlib.map fun v => .int v.toNat)]

/-- tags of `SensAinAinValue`, egts_sr_egtsplus_data.go:487-491 -/
def SensAinAinValue.goVal (m : SensAinAinValue) : GoVal := present [
  (asc "sens_num", m.SensNum.map fun v => .int v.toNat), (asc "mv", m.Mv.map fun v => .int v.toNat)]

/-- tags of `SensBufferData`, egts_sr_egtsplus_data.go:513-518 -/
def SensBufferData.goVal (m : SensBufferData) : GoVal := present [
  (asc "sens_num", m.SensNum.map fun v => .int v.toNat), (asc "data", nonEmpty m.Data),
  (asc "is_packed", m.IsPacked.map .bool)]

/-- tags of `SensButtonPressCounter`, egts_sr_egtsplus_data.go:547-551 -/
def SensButtonPressCounter.goVal (m : SensButtonPressCounter) : GoVal := present [
  (asc "sens_num", m.SensNum.map fun v => .int v.toNat), (asc "state", m.State.map .bool)]

/-- tags of `SensCanLogData`, egts_sr_egtsplus_data.go:573-590 -/
def SensCanLogData.goVal (m : SensCanLogData) : GoVal := present [
  (asc "sens_num", m.SensNum.map fun v => .int v.toNat),
  (asc "flag_security_state", m.FlagSecurityState.map fun v => .int v.toNat),
  (asc "flag_alarm", m.FlagAlarm.map fun v => .int v.toNat),
  (asc "engine_time_all", m.EngineTimeAll.map fun v => .int v.toNat),
  (asc "engine_turn_speed", m.EngineTurnSpeed.map fun v => .int v.toNat),
  (asc "engine_temperature", m.EngineTemperature.map fun v => .int v.toInt),
  (asc "fuel_consumption_all", m.FuelConsumptionAll.map fun v => .int v.toNat),
  (asc "fuel_level", m.FuelLevel.map fun v => .int v.toNat), (asc "track_all", m.TrackAll.map fun v => .int v.toNat),
  (asc "speed", m.Speed.map fun v => .int v.toNat), (asc "pressure_axis_1", m.PressureAxis_1.map fun v => .int v.toNat),
  (asc "pressure_axis_2", m.PressureAxis_2.map fun v => .int v.toNat),
  (asc "pressure_axis_3", m.PressureAxis_3.map fun v => .int v.toNat),
  (asc "pressure_axis_4", m.PressureAxis_4.map fun v => .int v.toNat),
  (asc "pressure_axis_5", m.PressureAxis_5.map fun v => .int v.toNat)]

/-- tags of `SensCanLogTmpDataExt`, egts_sr_egtsplus_data.go:703-708 -/
def SensCanLogTmpDataExt.goVal (m : SensCanLogTmpDataExt) : GoVal := present [
  (asc "sens_num", m.SensNum.map fun v => .int v.toNat), (asc "flags_high", m.FlagsHigh.map fun v => .int v.toNat),
  (asc "flags_low", m.FlagsLow.map fun v => .int v.toNat)]

/-- tags of `SensCounterCount`, egts_sr_egtsplus_data.go:737-741 -/
def SensCounterCount.goVal (m : SensCounterCount) : GoVal := present [
  (asc "sens_num", m.SensNum.map fun v => .int v.toNat), (asc "value", m.Value.map fun v => .int v.toNat)]

/-- tags of `SensCrashData`, egts_sr_egtsplus_data.go:763-768 -/
def SensCrashData.goVal (m : SensCrashData) : GoVal := present [
  (asc "sens_num", m.SensNum.map fun v => .int v.toNat), (asc "energy", m.Energy.map fun v => .int v.toNat),
  (asc "is_overturned", m.IsOverturned.map .bool)]

/-- tags of `SensDinsFlags`, egts_sr_egtsplus_data.go:797-802 -/
def SensDinsFlags.goVal (m : SensDinsFlags) : GoVal := present [
  (asc "sens_num", m.SensNum.map fun v => .int v.toNat), (asc "device", m.Device.map fun v => .int v.toNat),
  (asc "external", m.External.map fun v => .int v.toNat)]

/-- tags of `SensDoutsFlags`, egts_sr_egtsplus_data.go:831-836 -/
def SensDoutsFlags.goVal (m : SensDoutsFlags) : GoVal := present [
  (asc "sens_num", m.SensNum.map fun v => .int v.toNat), (asc "device", m.Device.map fun v => .int v.toNat),
  (asc "external", m.External.map fun v => .int v.toNat)]

/-- tags of `SensFmeterFrequency`, egts_sr_egtsplus_data.go:865-869 -/
def SensFmeterFrequency.goVal (m : SensFmeterFrequency) : GoVal := present [
  (asc "sens_num", m.SensNum.map fun v => .int v.toNat), (asc "value", m.Value.map fun v => .int v.toNat)]

/-- tags of `SensFuelLevel`, egts_sr_egtsplus_data.go:891-899 -/
def SensFuelLevel.goVal (m : SensFuelLevel) : GoVal := present [
  (asc "sens_num", m.SensNum.map fun v => .int v.toNat), (asc "value", m.Value.map .f32),
  (asc "parrots", m.Parrots.map fun v => .int v.toNat), (asc "unit", m.Unit.map fun v => .int v.toNat),
  (asc "t", m.T.map fun v => .int v.toNat), (asc "status", m.Status.map fun v => .int v.toNat)]

/-- tags of `SensGsmCellMonotoringCellMonitoring`, egts_sr_egtsplus_data.go:949-958 -/
def SensGsmCellMonotoringCellMonitoring.goVal (m : SensGsmCellMonotoringCellMonitoring) : GoVal := present [
  (asc "sens_num", m.SensNum.map fun v => .int v.toNat), (asc "lac", nonEmpty m.Lac), (asc "cid", nonEmpty m.Cid),
  (asc "rssi", nonEmpty m.Rssi), (asc "time_adv", nonEmpty m.TimeAdv), (asc "mcc", m.Mcc.map fun v => .int v.toNat),
  (asc "mnc", m.Mnc.map fun v => .int v.toNat)]

/-- tags of `SensNdNavData`, egts_sr_egtsplus_data.go:1017-1029 -/
def SensNdNavData.goVal (m : SensNdNavData) : GoVal := present [
  (asc "sens_num", m.SensNum.map fun v => .int v.toNat), (asc "longitude", m.Longitude.map fun v => .int v.toInt),
  (asc "latitude", m.Latitude.map fun v => .int v.toInt), (asc "altitude", m.Altitude.map fun v => .int v.toNat),
  (asc "speed", m.Speed.map fun v => .int v.toNat), (asc "course", m.Course.map fun v => .int v.toNat),
  (asc "sat_count", m.SatCount.map fun v => .int v.toNat), (asc "pdop", m.Pdop.map fun v => .int v.toNat),
  (asc "track", m.Track.map fun v => .int v.toNat), (asc "odometer", m.Odometer.map fun v => .int v.toNat)]

/-- tags of `SensStorInfo`, egts_sr_egtsplus_data.go:1107-1116 -/
def SensStorInfo.goVal (m : SensStorInfo) : GoVal := present [
  (asc "sens_num", m.SensNum.map fun v => .int v.toNat), (asc "id_max", m.IdMax.map fun v => .int v.toNat),
  (asc "id_min", m.IdMin.map fun v => .int v.toNat), (asc "tm_oldest", m.TmOldest.map fun v => .int v.toNat),
  (asc "tm_oldest_unack", m.TmOldestUnack.map fun v => .int v.toNat), (asc "cnt_unack", m.CntUnack.map fun v => .int v.toNat),
  (asc "cnt_unack_losted", m.CntUnackLosted.map fun v => .int v.toNat)]

/-- tags of `SensTermoData`, egts_sr_egtsplus_data.go:1173-1178 -/
def SensTermoData.goVal (m : SensTermoData) : GoVal := present [
  (asc "sens_num", m.SensNum.map fun v => .int v.toNat), (asc "status", m.Status.map fun v => .int v.toNat),
  (asc "temperature", m.Temperature.map fun v => .int v.toInt)]

/-- tags of `SensTestEraTests`, egts_sr_egtsplus_data.go:1207-1220 -/
def SensTestEraTests.goVal (m : SensTestEraTests) : GoVal := present [
  (asc "sens_num", m.SensNum.map fun v => .int v.toNat), (asc "mic_con_failure", m.MicConFailure.map .bool),
  (asc "mic_failure", m.MicFailure.map .bool), (asc "ignition_failure", m.IgnitionFailure.map .bool),
  (asc "uim_failure", m.UimFailure.map .bool), (asc "bat_failure", m.BatFailure.map .bool),
  (asc "bat_volt_low", m.BatVoltLow.map .bool), (asc "crash_sens_failure", m.CrashSensFailure.map .bool),
  (asc "raim_problem", m.RaimProblem.map .bool), (asc "gnss_antenna_failure", m.GnssAntennaFailure.map .bool),
  (asc "events_memory_overflow", m.EventsMemoryOverflow.map .bool)]

/-- tags of `SensTrackerInfo`, egts_sr_egtsplus_data.go:1305-1312 -/
def SensTrackerInfo.goVal (m : SensTrackerInfo) : GoVal := present [
  (asc "sens_num", m.SensNum.map fun v => .int v.toNat), (asc "cnt_ack", m.CntAck.map fun v => .int v.toNat),
  (asc "cnt_ack_realtime", m.CntAckRealtime.map fun v => .int v.toNat),
  (asc "cnt_noack", m.CntNoack.map fun v => .int v.toNat), (asc "cnt_connect", m.CntConnect.map fun v => .int v.toNat)]

/-- tags of `StorageRecord`, egts_sr_egtsplus_data.go:193-239 -/
def StorageRecord.goVal (m : StorageRecord) : GoVal := present [
  (asc "record_number", m.RecordNumber.map fun v => .int v.toNat), (asc "time_stamp", m.TimeStamp.map fun v => .int v.toNat),
  (asc "record_reason", sliceVal (fun v => .int v.toInt) m.RecordReason),
  (asc "status_flags", m.StatusFlags.map fun v => .int v.toNat),
  (asc "sens_accelerometer_data", sliceVal SensAccelerometerData.goVal m.SensAccelerometerData),
  (asc "sens_ain_ain_value", sliceVal SensAinAinValue.goVal m.SensAinAinValue),
  (asc "sens_buffer_data", sliceVal SensBufferData.goVal m.SensBufferData),
  (asc "sens_button_press_counter", sliceVal SensButtonPressCounter.goVal m.SensButtonPressCounter),
  (asc "sens_can_log_data", sliceVal SensCanLogData.goVal m.SensCanLogData),
  (asc "sens_can_log_tmp_data_ext", sliceVal SensCanLogTmpDataExt.goVal m.SensCanLogTmpDataExt),
  (asc "sens_counter_count", sliceVal SensCounterCount.goVal m.SensCounterCount),
  (asc "sens_crash_data", sliceVal SensCrashData.goVal m.SensCrashData),
  (asc "sens_dins_flags", sliceVal SensDinsFlags.goVal m.SensDinsFlags),
  (asc "sens_douts_flags", sliceVal SensDoutsFlags.goVal m.SensDoutsFlags),
  (asc "sens_fmeter_frequency", sliceVal SensFmeterFrequency.goVal m.SensFmeterFrequency),
  (asc "sens_fuel_level", sliceVal SensFuelLevel.goVal m.SensFuelLevel),
  (asc "sens_gsm_cell_monotoring_cell_monitoring", sliceVal SensGsmCellMonotoringCellMonitoring.goVal m.SensGsmCellMonotoringCellMonitoring),
  (asc "sens_nd_nav_data", sliceVal SensNdNavData.goVal m.SensNdNavData),
  (asc "sens_stor_info", sliceVal SensStorInfo.goVal m.SensStorInfo),
  (asc "sens_termo_data", sliceVal SensTermoData.goVal m.SensTermoData),
  (asc "sens_test_era_tests", sliceVal SensTestEraTests.goVal m.SensTestEraTests),
  (asc "sens_tracker_info", sliceVal SensTrackerInfo.goVal m.SensTrackerInfo)]


variable [P : Platform]

/-- the values of subrecords (pointers to structs; a nil interface is null); `pb` for EGTS+ messages (Go library, as called by libs/egts/egts_pkg.go:227-230) -/
def subVal (pb : P.PBMsg → GoVal) : Option SubData → GoVal
  | none => .nul
  | some (.pos d) => d.goVal
  | some (.term d) => d.goVal
  | some (.response d) => d.goVal
  | some (.result d) => d.goVal
  | some (.ext d) => d.goVal
  | some (.ad d) => d.goVal
  | some (.state d) => d.goVal
  | some (.liquid d) => d.goVal
  | some (.absCntr d) => d.goVal
  | some (.auth d) => d.goVal
  | some (.counters d) => d.goVal
  | some (.storage m) => pb m
  | some (.absAn d) => d.goVal
  | some (.dispatcher d) => d.goVal

/-- tags of `RecordData`, record_data.go:10-14 -/
def RecordData.goVal (pb : P.PBMsg → GoVal) (e : RecordData) : GoVal := .obj [
  (asc "SRT", .int e.SubrecordType.toNat), (asc "SRL", .int e.SubrecordLength.toNat), (asc "SRD", subVal pb e.SubrecordData)]

/-- what is left open of the values: see the head of this file (libs/egts/egts_pkg.go:227-230) -/
structure PkgVals where
  pb : P.PBMsg → GoVal
  nilRD : ServiceDataRecord → Bool

/-- a `RecordDataSet` (Go library, as called by libs/egts/egts_pkg.go:227-230) -/
def rdVal (V : PkgVals) (e : ServiceDataRecord) : GoVal :=
  if e.RecordDataSet.isEmpty ∧ V.nilRD e then .nul else .arr (e.RecordDataSet.map (RecordData.goVal V.pb))

/-- tags of `ServiceDataRecord`, service_data_records.go:11-27 -/
def ServiceDataRecord.goVal (V : PkgVals) (e : ServiceDataRecord) : GoVal := .obj [
  (asc "RL", .int e.RecordLength.toNat), (asc "RN", .int e.RecordNumber.toNat), (asc "SSOD", .str e.SourceServiceOnDevice),
  (asc "RSOD", .str e.RecipientServiceOnDevice), (asc "GRP", .str e.Group), (asc "RPP", .str e.RecordProcessingPriority),
  (asc "TMFE", .str e.TimeFieldExists), (asc "EVFE", .str e.EventIDFieldExists), (asc "OBFE", .str e.ObjectIDFieldExists),
  (asc "OID", .int e.ObjectIdentifier.toNat), (asc "EVID", .int e.EventIdentifier.toNat), (asc "TM", .int e.Time.toNat),
  (asc "SST", .int e.SourceServiceType.toNat), (asc "RST", .int e.RecipientServiceType.toNat), (asc "RD", rdVal V e)]

/-- a `ServiceDataSet` (Go library, as called by libs/egts/egts_pkg.go:227-230) -/
def sdsVal (V : PkgVals) (l : ServiceDataSet) : GoVal := .arr (l.map (ServiceDataRecord.goVal V))

/-- tags of `PtResponse`, egts_pt_response.go:10-14 -/
def PtResponse.goVal (V : PkgVals) (e : PtResponse) : GoVal := .obj [
  (asc "RPID", .int e.ResponsePacketID.toNat), (asc "PR", .int e.ProcessingResult.toNat),
  (asc "SDR", match e.SDR with | none => .nul | some s => sdsVal V s)]

/-- the frame data (Go library, as called by libs/egts/egts_pkg.go:227-230) -/
def bodyVal (V : PkgVals) : Option Body → GoVal
  | none => .nul
  | some (.appdata s) => sdsVal V s
  | some (.response e) => e.goVal V

/-- tags of `Package`, egts_pkg.go:14-33 -/
def Package.goVal (V : PkgVals) (e : Package) : GoVal := .obj [
  (asc "PRV", .int e.ProtocolVersion.toNat), (asc "SKID", .int e.SecurityKeyID.toNat), (asc "PRF", .str e.Prefix),
  (asc "RTE", .str e.Route), (asc "ENA", .str e.EncryptionAlg), (asc "CMP", .str e.Compression), (asc "PR", .str e.Priority),
  (asc "HL", .int e.HeaderLength.toNat), (asc "HE", .int e.HeaderEncoding.toNat), (asc "FDL", .int e.FrameDataLength.toNat),
  (asc "PID", .int e.PacketIdentifier.toNat), (asc "PT", .int e.PacketType.toNat), (asc "PRA", .int e.PeerAddress.toNat),
  (asc "RCA", .int e.RecipientAddress.toNat), (asc "TTL", .int e.TimeToLive.toNat), (asc "HCS", .int e.HeaderCheckSum.toNat),
  (asc "SFRD", bodyVal V e.ServicesFrameData), (asc "SFRCS", .int e.ServicesFrameDataCheckSum.toNat)]

/-- `(*Package).ToBytes`, egts_pkg.go:227-230; `none` is an error. -/
def Package.toBytes (F : PkgFmt) (V : PkgVals) (p : Package) : Option Bytes := GoVal.text F (p.goVal V)

end Egts
