import Verif.Go.Protobuf
import Verif.Model.Records
set_option autoImplicit false
/- Model of libs/egts/egts_sr_egtsplus_data.go (generated from docs/egts_sr_egtsplus_data.proto): the messages of the
subrecord EGTS_SR_EGTSPLUS_DATA. This file was written by a script from the struct definitions and their `protobuf` tags;
schemas are sorted by field number, the order in which the library writes fields. Pointers to scalars and byte slices
are options; a float32 is represented by its bits; `XXX_unrecognized` holds the unknown fields. The getters are in Model/Getters, the reasons in Model/Reason; the
descriptor and the registration are not modelled. -/
namespace Egts
open PB (Val)

namespace PB
/-- a projection, for the tags of egts_sr_egtsplus_data.go:193-239 -/
def Val.asU : Val → Option UInt32
  | .u n => some n
  | _ => none
/-- a projection, for the tags of egts_sr_egtsplus_data.go:193-239 -/
def Val.asI : Val → Option Int32
  | .i n => some n
  | _ => none
/-- a projection, for the tags of egts_sr_egtsplus_data.go:193-239 -/
def Val.asB : Val → Option Bool
  | .b n => some n
  | _ => none
/-- a projection, for the tags of egts_sr_egtsplus_data.go:193-239 -/
def Val.asS : Val → Option Bytes
  | .s n => some n
  | _ => none
/-- a projection, for the tags of egts_sr_egtsplus_data.go:193-239 -/
def Slot.val : Slot → Option Val
  | .one v => v
  | _ => none
/-- a projection, for the tags of egts_sr_egtsplus_data.go:193-239 -/
def Slot.reasons : Slot → List Int32
  | .enums l => l
  | _ => []
/-- a projection, for the tags of egts_sr_egtsplus_data.go:193-239 -/
def Slot.subs : Slot → List Sub
  | .msgs l => l
  | _ => []
end PB

/-- `SensAccelerometerData`, egts_sr_egtsplus_data.go:421-430 -/
structure SensAccelerometerData where
  SensNum : Option UInt32 := none
  Buf : Option Bytes := none
  Atm : Option UInt32 := none
  Frequency : Option UInt32 := none
  Range : Option UInt32 := none
  Format : Option UInt32 := none
  Zlib : Option UInt32 := none
  XXX_unrecognized : Bytes := []
deriving DecidableEq

/-- the `protobuf` tags of egts_sr_egtsplus_data.go:421-430 -/
def SensAccelerometerData.schema : PB.SubSchema :=
  [(1, .uint32), (2, .bytes), (3, .uint32), (4, .uint32), (5, .uint32), (6, .uint32), (7, .uint32)]

/-- the fields in the order of their numbers, the tags of egts_sr_egtsplus_data.go:421-430 -/
def SensAccelerometerData.toSub (m : SensAccelerometerData) : PB.Sub where
  vals := [m.SensNum.map .u, m.Buf.map .s, m.Atm.map .u, m.Frequency.map .u, m.Range.map .u, m.Format.map .u, m.Zlib.map .u]
  unknown := m.XXX_unrecognized

/-- the fields from their values in the order of their numbers, the tags of egts_sr_egtsplus_data.go:421-430 -/
def SensAccelerometerData.ofSub (s : PB.Sub) : SensAccelerometerData :=
  match s.vals with
  | [v1, v2, v3, v4, v5, v6, v7] =>
    { SensNum := v1.bind Val.asU, Buf := v2.bind Val.asS, Atm := v3.bind Val.asU, Frequency := v4.bind Val.asU, Range := v5.bind Val.asU, Format := v6.bind Val.asU, Zlib := v7.bind Val.asU
      XXX_unrecognized := s.unknown }
  | _ => {}

/-- `SensAinAinValue`, egts_sr_egtsplus_data.go:487-491 -/
structure SensAinAinValue where
  SensNum : Option UInt32 := none
  Mv : Option UInt32 := none
  XXX_unrecognized : Bytes := []
deriving DecidableEq

/-- the `protobuf` tags of egts_sr_egtsplus_data.go:487-491 -/
def SensAinAinValue.schema : PB.SubSchema :=
  [(1, .uint32), (2, .uint32)]

/-- the fields in the order of their numbers, the tags of egts_sr_egtsplus_data.go:487-491 -/
def SensAinAinValue.toSub (m : SensAinAinValue) : PB.Sub where
  vals := [m.SensNum.map .u, m.Mv.map .u]
  unknown := m.XXX_unrecognized

/-- the fields from their values in the order of their numbers, the tags of egts_sr_egtsplus_data.go:487-491 -/
def SensAinAinValue.ofSub (s : PB.Sub) : SensAinAinValue :=
  match s.vals with
  | [v1, v2] =>
    { SensNum := v1.bind Val.asU, Mv := v2.bind Val.asU
      XXX_unrecognized := s.unknown }
  | _ => {}

/-- `SensBufferData`, egts_sr_egtsplus_data.go:513-518 -/
structure SensBufferData where
  SensNum : Option UInt32 := none
  Data : Option Bytes := none
  IsPacked : Option Bool := none
  XXX_unrecognized : Bytes := []
deriving DecidableEq

/-- the `protobuf` tags of egts_sr_egtsplus_data.go:513-518 -/
def SensBufferData.schema : PB.SubSchema :=
  [(1, .uint32), (2, .bytes), (3, .bool)]

/-- the fields in the order of their numbers, the tags of egts_sr_egtsplus_data.go:513-518 -/
def SensBufferData.toSub (m : SensBufferData) : PB.Sub where
  vals := [m.SensNum.map .u, m.Data.map .s, m.IsPacked.map .b]
  unknown := m.XXX_unrecognized

/-- the fields from their values in the order of their numbers, the tags of egts_sr_egtsplus_data.go:513-518 -/
def SensBufferData.ofSub (s : PB.Sub) : SensBufferData :=
  match s.vals with
  | [v1, v2, v3] =>
    { SensNum := v1.bind Val.asU, Data := v2.bind Val.asS, IsPacked := v3.bind Val.asB
      XXX_unrecognized := s.unknown }
  | _ => {}

/-- `SensButtonPressCounter`, egts_sr_egtsplus_data.go:547-551 -/
structure SensButtonPressCounter where
  SensNum : Option UInt32 := none
  State : Option Bool := none
  XXX_unrecognized : Bytes := []
deriving DecidableEq

/-- the `protobuf` tags of egts_sr_egtsplus_data.go:547-551 -/
def SensButtonPressCounter.schema : PB.SubSchema :=
  [(1, .uint32), (2, .bool)]

/-- the fields in the order of their numbers, the tags of egts_sr_egtsplus_data.go:547-551 -/
def SensButtonPressCounter.toSub (m : SensButtonPressCounter) : PB.Sub where
  vals := [m.SensNum.map .u, m.State.map .b]
  unknown := m.XXX_unrecognized

/-- the fields from their values in the order of their numbers, the tags of egts_sr_egtsplus_data.go:547-551 -/
def SensButtonPressCounter.ofSub (s : PB.Sub) : SensButtonPressCounter :=
  match s.vals with
  | [v1, v2] =>
    { SensNum := v1.bind Val.asU, State := v2.bind Val.asB
      XXX_unrecognized := s.unknown }
  | _ => {}

/-- `SensCanLogData`, egts_sr_egtsplus_data.go:573-590 -/
structure SensCanLogData where
  SensNum : Option UInt32 := none
  FlagSecurityState : Option UInt32 := none
  FlagAlarm : Option UInt32 := none
  EngineTimeAll : Option UInt32 := none
  EngineTurnSpeed : Option UInt32 := none
  EngineTemperature : Option Int32 := none
  FuelConsumptionAll : Option UInt32 := none
  FuelLevel : Option UInt32 := none
  TrackAll : Option UInt32 := none
  Speed : Option UInt32 := none
  PressureAxis_1 : Option UInt32 := none
  PressureAxis_2 : Option UInt32 := none
  PressureAxis_3 : Option UInt32 := none
  PressureAxis_4 : Option UInt32 := none
  PressureAxis_5 : Option UInt32 := none
  XXX_unrecognized : Bytes := []
deriving DecidableEq

/-- the `protobuf` tags of egts_sr_egtsplus_data.go:573-590 -/
def SensCanLogData.schema : PB.SubSchema :=
  [(1, .uint32), (2, .uint32), (3, .uint32), (4, .uint32), (5, .uint32), (6, .sint32), (7, .uint32), (8, .uint32), (9, .uint32), (10, .uint32), (11, .uint32), (12, .uint32), (13, .uint32), (14, .uint32), (15, .uint32)]

/-- the fields in the order of their numbers, the tags of egts_sr_egtsplus_data.go:573-590 -/
def SensCanLogData.toSub (m : SensCanLogData) : PB.Sub where
  vals := [m.SensNum.map .u, m.FlagSecurityState.map .u, m.FlagAlarm.map .u, m.EngineTimeAll.map .u, m.EngineTurnSpeed.map .u, m.EngineTemperature.map .i, m.FuelConsumptionAll.map .u, m.FuelLevel.map .u, m.TrackAll.map .u, m.Speed.map .u, m.PressureAxis_1.map .u, m.PressureAxis_2.map .u, m.PressureAxis_3.map .u, m.PressureAxis_4.map .u, m.PressureAxis_5.map .u]
  unknown := m.XXX_unrecognized

/-- the fields from their values in the order of their numbers, the tags of egts_sr_egtsplus_data.go:573-590 -/
def SensCanLogData.ofSub (s : PB.Sub) : SensCanLogData :=
  match s.vals with
  | [v1, v2, v3, v4, v5, v6, v7, v8, v9, v10, v11, v12, v13, v14, v15] =>
    { SensNum := v1.bind Val.asU, FlagSecurityState := v2.bind Val.asU, FlagAlarm := v3.bind Val.asU, EngineTimeAll := v4.bind Val.asU, EngineTurnSpeed := v5.bind Val.asU, EngineTemperature := v6.bind Val.asI, FuelConsumptionAll := v7.bind Val.asU, FuelLevel := v8.bind Val.asU, TrackAll := v9.bind Val.asU, Speed := v10.bind Val.asU, PressureAxis_1 := v11.bind Val.asU, PressureAxis_2 := v12.bind Val.asU, PressureAxis_3 := v13.bind Val.asU, PressureAxis_4 := v14.bind Val.asU, PressureAxis_5 := v15.bind Val.asU
      XXX_unrecognized := s.unknown }
  | _ => {}

/-- `SensCanLogTmpDataExt`, egts_sr_egtsplus_data.go:703-708 -/
structure SensCanLogTmpDataExt where
  SensNum : Option UInt32 := none
  FlagsHigh : Option UInt32 := none
  FlagsLow : Option UInt32 := none
  XXX_unrecognized : Bytes := []
deriving DecidableEq

/-- the `protobuf` tags of egts_sr_egtsplus_data.go:703-708 -/
def SensCanLogTmpDataExt.schema : PB.SubSchema :=
  [(1, .uint32), (2, .uint32), (3, .uint32)]

/-- the fields in the order of their numbers, the tags of egts_sr_egtsplus_data.go:703-708 -/
def SensCanLogTmpDataExt.toSub (m : SensCanLogTmpDataExt) : PB.Sub where
  vals := [m.SensNum.map .u, m.FlagsHigh.map .u, m.FlagsLow.map .u]
  unknown := m.XXX_unrecognized

/-- the fields from their values in the order of their numbers, the tags of egts_sr_egtsplus_data.go:703-708 -/
def SensCanLogTmpDataExt.ofSub (s : PB.Sub) : SensCanLogTmpDataExt :=
  match s.vals with
  | [v1, v2, v3] =>
    { SensNum := v1.bind Val.asU, FlagsHigh := v2.bind Val.asU, FlagsLow := v3.bind Val.asU
      XXX_unrecognized := s.unknown }
  | _ => {}

/-- `SensCounterCount`, egts_sr_egtsplus_data.go:737-741 -/
structure SensCounterCount where
  SensNum : Option UInt32 := none
  Value : Option UInt32 := none
  XXX_unrecognized : Bytes := []
deriving DecidableEq

/-- the `protobuf` tags of egts_sr_egtsplus_data.go:737-741 -/
def SensCounterCount.schema : PB.SubSchema :=
  [(1, .uint32), (2, .uint32)]

/-- the fields in the order of their numbers, the tags of egts_sr_egtsplus_data.go:737-741 -/
def SensCounterCount.toSub (m : SensCounterCount) : PB.Sub where
  vals := [m.SensNum.map .u, m.Value.map .u]
  unknown := m.XXX_unrecognized

/-- the fields from their values in the order of their numbers, the tags of egts_sr_egtsplus_data.go:737-741 -/
def SensCounterCount.ofSub (s : PB.Sub) : SensCounterCount :=
  match s.vals with
  | [v1, v2] =>
    { SensNum := v1.bind Val.asU, Value := v2.bind Val.asU
      XXX_unrecognized := s.unknown }
  | _ => {}

/-- `SensCrashData`, egts_sr_egtsplus_data.go:763-768 -/
structure SensCrashData where
  SensNum : Option UInt32 := none
  Energy : Option UInt32 := none
  IsOverturned : Option Bool := none
  XXX_unrecognized : Bytes := []
deriving DecidableEq

/-- the `protobuf` tags of egts_sr_egtsplus_data.go:763-768 -/
def SensCrashData.schema : PB.SubSchema :=
  [(1, .uint32), (2, .uint32), (3, .bool)]

/-- the fields in the order of their numbers, the tags of egts_sr_egtsplus_data.go:763-768 -/
def SensCrashData.toSub (m : SensCrashData) : PB.Sub where
  vals := [m.SensNum.map .u, m.Energy.map .u, m.IsOverturned.map .b]
  unknown := m.XXX_unrecognized

/-- the fields from their values in the order of their numbers, the tags of egts_sr_egtsplus_data.go:763-768 -/
def SensCrashData.ofSub (s : PB.Sub) : SensCrashData :=
  match s.vals with
  | [v1, v2, v3] =>
    { SensNum := v1.bind Val.asU, Energy := v2.bind Val.asU, IsOverturned := v3.bind Val.asB
      XXX_unrecognized := s.unknown }
  | _ => {}

/-- `SensDinsFlags`, egts_sr_egtsplus_data.go:797-802 -/
structure SensDinsFlags where
  SensNum : Option UInt32 := none
  Device : Option UInt32 := none
  External : Option UInt32 := none
  XXX_unrecognized : Bytes := []
deriving DecidableEq

/-- the `protobuf` tags of egts_sr_egtsplus_data.go:797-802 -/
def SensDinsFlags.schema : PB.SubSchema :=
  [(1, .uint32), (2, .uint32), (3, .uint32)]

/-- the fields in the order of their numbers, the tags of egts_sr_egtsplus_data.go:797-802 -/
def SensDinsFlags.toSub (m : SensDinsFlags) : PB.Sub where
  vals := [m.SensNum.map .u, m.Device.map .u, m.External.map .u]
  unknown := m.XXX_unrecognized

/-- the fields from their values in the order of their numbers, the tags of egts_sr_egtsplus_data.go:797-802 -/
def SensDinsFlags.ofSub (s : PB.Sub) : SensDinsFlags :=
  match s.vals with
  | [v1, v2, v3] =>
    { SensNum := v1.bind Val.asU, Device := v2.bind Val.asU, External := v3.bind Val.asU
      XXX_unrecognized := s.unknown }
  | _ => {}

/-- `SensDoutsFlags`, egts_sr_egtsplus_data.go:831-836 -/
structure SensDoutsFlags where
  SensNum : Option UInt32 := none
  Device : Option UInt32 := none
  External : Option UInt32 := none
  XXX_unrecognized : Bytes := []
deriving DecidableEq

/-- the `protobuf` tags of egts_sr_egtsplus_data.go:831-836 -/
def SensDoutsFlags.schema : PB.SubSchema :=
  [(1, .uint32), (2, .uint32), (3, .uint32)]

/-- the fields in the order of their numbers, the tags of egts_sr_egtsplus_data.go:831-836 -/
def SensDoutsFlags.toSub (m : SensDoutsFlags) : PB.Sub where
  vals := [m.SensNum.map .u, m.Device.map .u, m.External.map .u]
  unknown := m.XXX_unrecognized

/-- the fields from their values in the order of their numbers, the tags of egts_sr_egtsplus_data.go:831-836 -/
def SensDoutsFlags.ofSub (s : PB.Sub) : SensDoutsFlags :=
  match s.vals with
  | [v1, v2, v3] =>
    { SensNum := v1.bind Val.asU, Device := v2.bind Val.asU, External := v3.bind Val.asU
      XXX_unrecognized := s.unknown }
  | _ => {}

/-- `SensFmeterFrequency`, egts_sr_egtsplus_data.go:865-869 -/
structure SensFmeterFrequency where
  SensNum : Option UInt32 := none
  Value : Option UInt32 := none
  XXX_unrecognized : Bytes := []
deriving DecidableEq

/-- the `protobuf` tags of egts_sr_egtsplus_data.go:865-869 -/
def SensFmeterFrequency.schema : PB.SubSchema :=
  [(1, .uint32), (2, .uint32)]

/-- the fields in the order of their numbers, the tags of egts_sr_egtsplus_data.go:865-869 -/
def SensFmeterFrequency.toSub (m : SensFmeterFrequency) : PB.Sub where
  vals := [m.SensNum.map .u, m.Value.map .u]
  unknown := m.XXX_unrecognized

/-- the fields from their values in the order of their numbers, the tags of egts_sr_egtsplus_data.go:865-869 -/
def SensFmeterFrequency.ofSub (s : PB.Sub) : SensFmeterFrequency :=
  match s.vals with
  | [v1, v2] =>
    { SensNum := v1.bind Val.asU, Value := v2.bind Val.asU
      XXX_unrecognized := s.unknown }
  | _ => {}

/-- `SensFuelLevel`, egts_sr_egtsplus_data.go:891-899 -/
structure SensFuelLevel where
  SensNum : Option UInt32 := none
  Value : Option UInt32 := none
  Parrots : Option UInt32 := none
  Unit : Option UInt32 := none
  T : Option UInt32 := none
  Status : Option UInt32 := none
  XXX_unrecognized : Bytes := []
deriving DecidableEq

/-- the `protobuf` tags of egts_sr_egtsplus_data.go:891-899 -/
def SensFuelLevel.schema : PB.SubSchema :=
  [(1, .uint32), (2, .float), (3, .uint32), (4, .uint32), (5, .uint32), (6, .uint32)]

/-- the fields in the order of their numbers, the tags of egts_sr_egtsplus_data.go:891-899 -/
def SensFuelLevel.toSub (m : SensFuelLevel) : PB.Sub where
  vals := [m.SensNum.map .u, m.Value.map .u, m.Parrots.map .u, m.Unit.map .u, m.T.map .u, m.Status.map .u]
  unknown := m.XXX_unrecognized

/-- the fields from their values in the order of their numbers, the tags of egts_sr_egtsplus_data.go:891-899 -/
def SensFuelLevel.ofSub (s : PB.Sub) : SensFuelLevel :=
  match s.vals with
  | [v1, v2, v3, v4, v5, v6] =>
    { SensNum := v1.bind Val.asU, Value := v2.bind Val.asU, Parrots := v3.bind Val.asU, Unit := v4.bind Val.asU, T := v5.bind Val.asU, Status := v6.bind Val.asU
      XXX_unrecognized := s.unknown }
  | _ => {}

/-- `SensGsmCellMonotoringCellMonitoring`, egts_sr_egtsplus_data.go:949-958 -/
structure SensGsmCellMonotoringCellMonitoring where
  SensNum : Option UInt32 := none
  Lac : Option Bytes := none
  Cid : Option Bytes := none
  Rssi : Option Bytes := none
  TimeAdv : Option Bytes := none
  Mcc : Option UInt32 := none
  Mnc : Option UInt32 := none
  XXX_unrecognized : Bytes := []
deriving DecidableEq

/-- the `protobuf` tags of egts_sr_egtsplus_data.go:949-958 -/
def SensGsmCellMonotoringCellMonitoring.schema : PB.SubSchema :=
  [(1, .uint32), (2, .uint32), (3, .uint32), (4, .bytes), (5, .bytes), (6, .bytes), (7, .bytes)]

/-- the fields in the order of their numbers, the tags of egts_sr_egtsplus_data.go:949-958 -/
def SensGsmCellMonotoringCellMonitoring.toSub (m : SensGsmCellMonotoringCellMonitoring) : PB.Sub where
  vals := [m.SensNum.map .u, m.Mcc.map .u, m.Mnc.map .u, m.Lac.map .s, m.Cid.map .s, m.Rssi.map .s, m.TimeAdv.map .s]
  unknown := m.XXX_unrecognized

/-- the fields from their values in the order of their numbers, the tags of egts_sr_egtsplus_data.go:949-958 -/
def SensGsmCellMonotoringCellMonitoring.ofSub (s : PB.Sub) : SensGsmCellMonotoringCellMonitoring :=
  match s.vals with
  | [v1, v2, v3, v4, v5, v6, v7] =>
    { SensNum := v1.bind Val.asU, Mcc := v2.bind Val.asU, Mnc := v3.bind Val.asU, Lac := v4.bind Val.asS, Cid := v5.bind Val.asS, Rssi := v6.bind Val.asS, TimeAdv := v7.bind Val.asS
      XXX_unrecognized := s.unknown }
  | _ => {}

/-- `SensNdNavData`, egts_sr_egtsplus_data.go:1017-1029 -/
structure SensNdNavData where
  SensNum : Option UInt32 := none
  Longitude : Option Int32 := none
  Latitude : Option Int32 := none
  Altitude : Option UInt32 := none
  Speed : Option UInt32 := none
  Course : Option UInt32 := none
  SatCount : Option UInt32 := none
  Pdop : Option UInt32 := none
  Track : Option UInt32 := none
  Odometer : Option UInt32 := none
  XXX_unrecognized : Bytes := []
deriving DecidableEq

/-- the `protobuf` tags of egts_sr_egtsplus_data.go:1017-1029 -/
def SensNdNavData.schema : PB.SubSchema :=
  [(1, .uint32), (2, .sfixed32), (3, .sfixed32), (4, .uint32), (5, .uint32), (6, .uint32), (7, .uint32), (8, .uint32), (9, .uint32), (10, .uint32)]

/-- the fields in the order of their numbers, the tags of egts_sr_egtsplus_data.go:1017-1029 -/
def SensNdNavData.toSub (m : SensNdNavData) : PB.Sub where
  vals := [m.SensNum.map .u, m.Longitude.map .i, m.Latitude.map .i, m.Altitude.map .u, m.Speed.map .u, m.Course.map .u, m.SatCount.map .u, m.Pdop.map .u, m.Track.map .u, m.Odometer.map .u]
  unknown := m.XXX_unrecognized

/-- the fields from their values in the order of their numbers, the tags of egts_sr_egtsplus_data.go:1017-1029 -/
def SensNdNavData.ofSub (s : PB.Sub) : SensNdNavData :=
  match s.vals with
  | [v1, v2, v3, v4, v5, v6, v7, v8, v9, v10] =>
    { SensNum := v1.bind Val.asU, Longitude := v2.bind Val.asI, Latitude := v3.bind Val.asI, Altitude := v4.bind Val.asU, Speed := v5.bind Val.asU, Course := v6.bind Val.asU, SatCount := v7.bind Val.asU, Pdop := v8.bind Val.asU, Track := v9.bind Val.asU, Odometer := v10.bind Val.asU
      XXX_unrecognized := s.unknown }
  | _ => {}

/-- `SensStorInfo`, egts_sr_egtsplus_data.go:1107-1116 -/
structure SensStorInfo where
  SensNum : Option UInt32 := none
  IdMax : Option UInt32 := none
  IdMin : Option UInt32 := none
  TmOldest : Option UInt32 := none
  TmOldestUnack : Option UInt32 := none
  CntUnack : Option UInt32 := none
  CntUnackLosted : Option UInt32 := none
  XXX_unrecognized : Bytes := []
deriving DecidableEq

/-- the `protobuf` tags of egts_sr_egtsplus_data.go:1107-1116 -/
def SensStorInfo.schema : PB.SubSchema :=
  [(1, .uint32), (2, .uint32), (3, .uint32), (4, .uint32), (5, .uint32), (6, .uint32), (7, .uint32)]

/-- the fields in the order of their numbers, the tags of egts_sr_egtsplus_data.go:1107-1116 -/
def SensStorInfo.toSub (m : SensStorInfo) : PB.Sub where
  vals := [m.SensNum.map .u, m.IdMax.map .u, m.IdMin.map .u, m.TmOldest.map .u, m.TmOldestUnack.map .u, m.CntUnack.map .u, m.CntUnackLosted.map .u]
  unknown := m.XXX_unrecognized

/-- the fields from their values in the order of their numbers, the tags of egts_sr_egtsplus_data.go:1107-1116 -/
def SensStorInfo.ofSub (s : PB.Sub) : SensStorInfo :=
  match s.vals with
  | [v1, v2, v3, v4, v5, v6, v7] =>
    { SensNum := v1.bind Val.asU, IdMax := v2.bind Val.asU, IdMin := v3.bind Val.asU, TmOldest := v4.bind Val.asU, TmOldestUnack := v5.bind Val.asU, CntUnack := v6.bind Val.asU, CntUnackLosted := v7.bind Val.asU
      XXX_unrecognized := s.unknown }
  | _ => {}

/-- `SensTermoData`, egts_sr_egtsplus_data.go:1173-1178 -/
structure SensTermoData where
  SensNum : Option UInt32 := none
  Status : Option UInt32 := none
  Temperature : Option Int32 := none
  XXX_unrecognized : Bytes := []
deriving DecidableEq

/-- the `protobuf` tags of egts_sr_egtsplus_data.go:1173-1178 -/
def SensTermoData.schema : PB.SubSchema :=
  [(1, .uint32), (2, .uint32), (3, .sint32)]

/-- the fields in the order of their numbers, the tags of egts_sr_egtsplus_data.go:1173-1178 -/
def SensTermoData.toSub (m : SensTermoData) : PB.Sub where
  vals := [m.SensNum.map .u, m.Status.map .u, m.Temperature.map .i]
  unknown := m.XXX_unrecognized

/-- the fields from their values in the order of their numbers, the tags of egts_sr_egtsplus_data.go:1173-1178 -/
def SensTermoData.ofSub (s : PB.Sub) : SensTermoData :=
  match s.vals with
  | [v1, v2, v3] =>
    { SensNum := v1.bind Val.asU, Status := v2.bind Val.asU, Temperature := v3.bind Val.asI
      XXX_unrecognized := s.unknown }
  | _ => {}

/-- `SensTestEraTests`, egts_sr_egtsplus_data.go:1207-1220 -/
structure SensTestEraTests where
  SensNum : Option UInt32 := none
  MicConFailure : Option Bool := none
  MicFailure : Option Bool := none
  IgnitionFailure : Option Bool := none
  UimFailure : Option Bool := none
  BatFailure : Option Bool := none
  BatVoltLow : Option Bool := none
  CrashSensFailure : Option Bool := none
  RaimProblem : Option Bool := none
  GnssAntennaFailure : Option Bool := none
  EventsMemoryOverflow : Option Bool := none
  XXX_unrecognized : Bytes := []
deriving DecidableEq

/-- the `protobuf` tags of egts_sr_egtsplus_data.go:1207-1220 -/
def SensTestEraTests.schema : PB.SubSchema :=
  [(1, .uint32), (2, .bool), (3, .bool), (4, .bool), (5, .bool), (6, .bool), (7, .bool), (8, .bool), (9, .bool), (10, .bool), (11, .bool)]

/-- the fields in the order of their numbers, the tags of egts_sr_egtsplus_data.go:1207-1220 -/
def SensTestEraTests.toSub (m : SensTestEraTests) : PB.Sub where
  vals := [m.SensNum.map .u, m.MicConFailure.map .b, m.MicFailure.map .b, m.IgnitionFailure.map .b, m.UimFailure.map .b, m.BatFailure.map .b, m.BatVoltLow.map .b, m.CrashSensFailure.map .b, m.RaimProblem.map .b, m.GnssAntennaFailure.map .b, m.EventsMemoryOverflow.map .b]
  unknown := m.XXX_unrecognized

/-- the fields from their values in the order of their numbers, the tags of egts_sr_egtsplus_data.go:1207-1220 -/
def SensTestEraTests.ofSub (s : PB.Sub) : SensTestEraTests :=
  match s.vals with
  | [v1, v2, v3, v4, v5, v6, v7, v8, v9, v10, v11] =>
    { SensNum := v1.bind Val.asU, MicConFailure := v2.bind Val.asB, MicFailure := v3.bind Val.asB, IgnitionFailure := v4.bind Val.asB, UimFailure := v5.bind Val.asB, BatFailure := v6.bind Val.asB, BatVoltLow := v7.bind Val.asB, CrashSensFailure := v8.bind Val.asB, RaimProblem := v9.bind Val.asB, GnssAntennaFailure := v10.bind Val.asB, EventsMemoryOverflow := v11.bind Val.asB
      XXX_unrecognized := s.unknown }
  | _ => {}

/-- `SensTrackerInfo`, egts_sr_egtsplus_data.go:1305-1312 -/
structure SensTrackerInfo where
  SensNum : Option UInt32 := none
  CntAck : Option UInt32 := none
  CntAckRealtime : Option UInt32 := none
  CntNoack : Option UInt32 := none
  CntConnect : Option UInt32 := none
  XXX_unrecognized : Bytes := []
deriving DecidableEq

/-- the `protobuf` tags of egts_sr_egtsplus_data.go:1305-1312 -/
def SensTrackerInfo.schema : PB.SubSchema :=
  [(1, .uint32), (2, .uint32), (3, .uint32), (4, .uint32), (5, .uint32)]

/-- the fields in the order of their numbers, the tags of egts_sr_egtsplus_data.go:1305-1312 -/
def SensTrackerInfo.toSub (m : SensTrackerInfo) : PB.Sub where
  vals := [m.SensNum.map .u, m.CntAck.map .u, m.CntAckRealtime.map .u, m.CntNoack.map .u, m.CntConnect.map .u]
  unknown := m.XXX_unrecognized

/-- the fields from their values in the order of their numbers, the tags of egts_sr_egtsplus_data.go:1305-1312 -/
def SensTrackerInfo.ofSub (s : PB.Sub) : SensTrackerInfo :=
  match s.vals with
  | [v1, v2, v3, v4, v5] =>
    { SensNum := v1.bind Val.asU, CntAck := v2.bind Val.asU, CntAckRealtime := v3.bind Val.asU, CntNoack := v4.bind Val.asU, CntConnect := v5.bind Val.asU
      XXX_unrecognized := s.unknown }
  | _ => {}

/-- `StorageRecord`, egts_sr_egtsplus_data.go:193-239 -/
structure StorageRecord where
  RecordNumber : Option UInt32 := none
  TimeStamp : Option UInt32 := none
  RecordReason : List Int32 := []
  StatusFlags : Option UInt32 := none
  SensAccelerometerData : List SensAccelerometerData := []
  SensAinAinValue : List SensAinAinValue := []
  SensBufferData : List SensBufferData := []
  SensButtonPressCounter : List SensButtonPressCounter := []
  SensCanLogData : List SensCanLogData := []
  SensCanLogTmpDataExt : List SensCanLogTmpDataExt := []
  SensCounterCount : List SensCounterCount := []
  SensCrashData : List SensCrashData := []
  SensDinsFlags : List SensDinsFlags := []
  SensDoutsFlags : List SensDoutsFlags := []
  SensFmeterFrequency : List SensFmeterFrequency := []
  SensFuelLevel : List SensFuelLevel := []
  SensGsmCellMonotoringCellMonitoring : List SensGsmCellMonotoringCellMonitoring := []
  SensNdNavData : List SensNdNavData := []
  SensStorInfo : List SensStorInfo := []
  SensTermoData : List SensTermoData := []
  SensTestEraTests : List SensTestEraTests := []
  SensTrackerInfo : List SensTrackerInfo := []
  XXX_unrecognized : Bytes := []
deriving DecidableEq

/-- the `protobuf` tags of egts_sr_egtsplus_data.go:193-239 -/
def StorageRecord.schema : PB.Schema :=
  [(1, .one .uint32),
    (2, .one .fixed32),
    (3, .enums),
    (4, .one .fixed32),
    (7, .msgs SensNdNavData.schema),
    (8, .msgs SensFuelLevel.schema),
    (9, .msgs SensAinAinValue.schema),
    (10, .msgs SensDinsFlags.schema),
    (11, .msgs SensCounterCount.schema),
    (12, .msgs SensFmeterFrequency.schema),
    (13, .msgs SensGsmCellMonotoringCellMonitoring.schema),
    (14, .msgs SensButtonPressCounter.schema),
    (15, .msgs SensTermoData.schema),
    (16, .msgs SensCanLogData.schema),
    (17, .msgs SensCanLogTmpDataExt.schema),
    (18, .msgs SensAccelerometerData.schema),
    (19, .msgs SensDoutsFlags.schema),
    (20, .msgs SensBufferData.schema),
    (21, .msgs SensStorInfo.schema),
    (22, .msgs SensTrackerInfo.schema),
    (23, .msgs SensTestEraTests.schema),
    (24, .msgs SensCrashData.schema)]

/-- the fields in the order of their numbers, the tags of egts_sr_egtsplus_data.go:193-239 -/
def StorageRecord.toMsg (m : StorageRecord) : List PB.Slot × Bytes :=
  ([.one (m.RecordNumber.map .u),
    .one (m.TimeStamp.map .u),
    .enums m.RecordReason,
    .one (m.StatusFlags.map .u),
    .msgs (m.SensNdNavData.map SensNdNavData.toSub),
    .msgs (m.SensFuelLevel.map SensFuelLevel.toSub),
    .msgs (m.SensAinAinValue.map SensAinAinValue.toSub),
    .msgs (m.SensDinsFlags.map SensDinsFlags.toSub),
    .msgs (m.SensCounterCount.map SensCounterCount.toSub),
    .msgs (m.SensFmeterFrequency.map SensFmeterFrequency.toSub),
    .msgs (m.SensGsmCellMonotoringCellMonitoring.map SensGsmCellMonotoringCellMonitoring.toSub),
    .msgs (m.SensButtonPressCounter.map SensButtonPressCounter.toSub),
    .msgs (m.SensTermoData.map SensTermoData.toSub),
    .msgs (m.SensCanLogData.map SensCanLogData.toSub),
    .msgs (m.SensCanLogTmpDataExt.map SensCanLogTmpDataExt.toSub),
    .msgs (m.SensAccelerometerData.map SensAccelerometerData.toSub),
    .msgs (m.SensDoutsFlags.map SensDoutsFlags.toSub),
    .msgs (m.SensBufferData.map SensBufferData.toSub),
    .msgs (m.SensStorInfo.map SensStorInfo.toSub),
    .msgs (m.SensTrackerInfo.map SensTrackerInfo.toSub),
    .msgs (m.SensTestEraTests.map SensTestEraTests.toSub),
    .msgs (m.SensCrashData.map SensCrashData.toSub)],
   m.XXX_unrecognized)

/-- the fields from their values in the order of their numbers, the tags of egts_sr_egtsplus_data.go:193-239 -/
def StorageRecord.ofMsg (s : List PB.Slot × Bytes) : StorageRecord :=
  match s.1 with
  | [v1, v2, v3, v4, v7, v8, v9, v10, v11, v12, v13, v14, v15, v16, v17, v18, v19, v20, v21, v22, v23, v24] =>
    { RecordNumber := v1.val.bind Val.asU
      TimeStamp := v2.val.bind Val.asU
      RecordReason := v3.reasons
      StatusFlags := v4.val.bind Val.asU
      SensNdNavData := v7.subs.map SensNdNavData.ofSub
      SensFuelLevel := v8.subs.map SensFuelLevel.ofSub
      SensAinAinValue := v9.subs.map SensAinAinValue.ofSub
      SensDinsFlags := v10.subs.map SensDinsFlags.ofSub
      SensCounterCount := v11.subs.map SensCounterCount.ofSub
      SensFmeterFrequency := v12.subs.map SensFmeterFrequency.ofSub
      SensGsmCellMonotoringCellMonitoring := v13.subs.map SensGsmCellMonotoringCellMonitoring.ofSub
      SensButtonPressCounter := v14.subs.map SensButtonPressCounter.ofSub
      SensTermoData := v15.subs.map SensTermoData.ofSub
      SensCanLogData := v16.subs.map SensCanLogData.ofSub
      SensCanLogTmpDataExt := v17.subs.map SensCanLogTmpDataExt.ofSub
      SensAccelerometerData := v18.subs.map SensAccelerometerData.ofSub
      SensDoutsFlags := v19.subs.map SensDoutsFlags.ofSub
      SensBufferData := v20.subs.map SensBufferData.ofSub
      SensStorInfo := v21.subs.map SensStorInfo.ofSub
      SensTrackerInfo := v22.subs.map SensTrackerInfo.ofSub
      SensTestEraTests := v23.subs.map SensTestEraTests.ofSub
      SensCrashData := v24.subs.map SensCrashData.ofSub
      XXX_unrecognized := s.2 }
  | _ => {}

/-- all `req` fields of the tags are set (egts_sr_egtsplus_data.go:194-199) -/
def StorageRecord.initialized (m : StorageRecord) : Bool := m.RecordNumber.isSome && m.TimeStamp.isSome && m.StatusFlags.isSome

/-- `proto.Unmarshal(content, m)`, egts_sr_egtsplus_data.go:241-243: fails if a required field is missing. -/
def StorageRecord.unmarshal (b : Bytes) : Option StorageRecord :=
  match PB.getMsg StorageRecord.schema b with
  | none => none
  | some s => if (StorageRecord.ofMsg s).initialized then some (StorageRecord.ofMsg s) else none

/-- `proto.Marshal(m)`, egts_sr_egtsplus_data.go:245-247: fails if a required field is missing. -/
def StorageRecord.marshal (m : StorageRecord) : Option Bytes :=
  if m.initialized then some (PB.putMsg StorageRecord.schema m.toMsg) else none

/-- the external behaviour of the model with the protobuf library filled in (the calls of egts_sr_egtsplus_data.go:241-247) -/
@[reducible] def protobufPlatform (f2u32OutOfRange : F64 → UInt32) : Platform where
  PBMsg := StorageRecord
  pbEmpty := {}
  pbUnmarshal := StorageRecord.unmarshal
  pbMarshal := StorageRecord.marshal
  f2u32OutOfRange := f2u32OutOfRange

end Egts
