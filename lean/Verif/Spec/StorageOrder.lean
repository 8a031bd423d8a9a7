import Verif.Props.StorageWire
set_option autoImplicit false
/- Telematic messages as sequences of fields in any order. Independent of the model of the library, but for the type of messages.
The definitions of `merge` were written by a script from the struct definitions. -/
namespace Egts
open Proto

/-! two messages in one: of optional fields the later value counts, the elements of repeated fields are put together
(https://protobuf.dev/programming-guides/encoding, "Last One Wins") -/

def SensAccelerometerData.merge (a b : SensAccelerometerData) : SensAccelerometerData where
  SensNum := b.SensNum <|> a.SensNum
  Buf := b.Buf <|> a.Buf
  Atm := b.Atm <|> a.Atm
  Frequency := b.Frequency <|> a.Frequency
  Range := b.Range <|> a.Range
  Format := b.Format <|> a.Format
  Zlib := b.Zlib <|> a.Zlib
  XXX_unrecognized := a.XXX_unrecognized ++ b.XXX_unrecognized

def SensAinAinValue.merge (a b : SensAinAinValue) : SensAinAinValue where
  SensNum := b.SensNum <|> a.SensNum
  Mv := b.Mv <|> a.Mv
  XXX_unrecognized := a.XXX_unrecognized ++ b.XXX_unrecognized

def SensBufferData.merge (a b : SensBufferData) : SensBufferData where
  SensNum := b.SensNum <|> a.SensNum
  Data := b.Data <|> a.Data
  IsPacked := b.IsPacked <|> a.IsPacked
  XXX_unrecognized := a.XXX_unrecognized ++ b.XXX_unrecognized

def SensButtonPressCounter.merge (a b : SensButtonPressCounter) : SensButtonPressCounter where
  SensNum := b.SensNum <|> a.SensNum
  State := b.State <|> a.State
  XXX_unrecognized := a.XXX_unrecognized ++ b.XXX_unrecognized

def SensCanLogData.merge (a b : SensCanLogData) : SensCanLogData where
  SensNum := b.SensNum <|> a.SensNum
  FlagSecurityState := b.FlagSecurityState <|> a.FlagSecurityState
  FlagAlarm := b.FlagAlarm <|> a.FlagAlarm
  EngineTimeAll := b.EngineTimeAll <|> a.EngineTimeAll
  EngineTurnSpeed := b.EngineTurnSpeed <|> a.EngineTurnSpeed
  EngineTemperature := b.EngineTemperature <|> a.EngineTemperature
  FuelConsumptionAll := b.FuelConsumptionAll <|> a.FuelConsumptionAll
  FuelLevel := b.FuelLevel <|> a.FuelLevel
  TrackAll := b.TrackAll <|> a.TrackAll
  Speed := b.Speed <|> a.Speed
  PressureAxis_1 := b.PressureAxis_1 <|> a.PressureAxis_1
  PressureAxis_2 := b.PressureAxis_2 <|> a.PressureAxis_2
  PressureAxis_3 := b.PressureAxis_3 <|> a.PressureAxis_3
  PressureAxis_4 := b.PressureAxis_4 <|> a.PressureAxis_4
  PressureAxis_5 := b.PressureAxis_5 <|> a.PressureAxis_5
  XXX_unrecognized := a.XXX_unrecognized ++ b.XXX_unrecognized

def SensCanLogTmpDataExt.merge (a b : SensCanLogTmpDataExt) : SensCanLogTmpDataExt where
  SensNum := b.SensNum <|> a.SensNum
  FlagsHigh := b.FlagsHigh <|> a.FlagsHigh
  FlagsLow := b.FlagsLow <|> a.FlagsLow
  XXX_unrecognized := a.XXX_unrecognized ++ b.XXX_unrecognized

def SensCounterCount.merge (a b : SensCounterCount) : SensCounterCount where
  SensNum := b.SensNum <|> a.SensNum
  Value := b.Value <|> a.Value
  XXX_unrecognized := a.XXX_unrecognized ++ b.XXX_unrecognized

def SensCrashData.merge (a b : SensCrashData) : SensCrashData where
  SensNum := b.SensNum <|> a.SensNum
  Energy := b.Energy <|> a.Energy
  IsOverturned := b.IsOverturned <|> a.IsOverturned
  XXX_unrecognized := a.XXX_unrecognized ++ b.XXX_unrecognized

def SensDinsFlags.merge (a b : SensDinsFlags) : SensDinsFlags where
  SensNum := b.SensNum <|> a.SensNum
  Device := b.Device <|> a.Device
  External := b.External <|> a.External
  XXX_unrecognized := a.XXX_unrecognized ++ b.XXX_unrecognized

def SensDoutsFlags.merge (a b : SensDoutsFlags) : SensDoutsFlags where
  SensNum := b.SensNum <|> a.SensNum
  Device := b.Device <|> a.Device
  External := b.External <|> a.External
  XXX_unrecognized := a.XXX_unrecognized ++ b.XXX_unrecognized

def SensFmeterFrequency.merge (a b : SensFmeterFrequency) : SensFmeterFrequency where
  SensNum := b.SensNum <|> a.SensNum
  Value := b.Value <|> a.Value
  XXX_unrecognized := a.XXX_unrecognized ++ b.XXX_unrecognized

def SensFuelLevel.merge (a b : SensFuelLevel) : SensFuelLevel where
  SensNum := b.SensNum <|> a.SensNum
  Value := b.Value <|> a.Value
  Parrots := b.Parrots <|> a.Parrots
  Unit := b.Unit <|> a.Unit
  T := b.T <|> a.T
  Status := b.Status <|> a.Status
  XXX_unrecognized := a.XXX_unrecognized ++ b.XXX_unrecognized

def SensGsmCellMonotoringCellMonitoring.merge (a b : SensGsmCellMonotoringCellMonitoring) : SensGsmCellMonotoringCellMonitoring where
  SensNum := b.SensNum <|> a.SensNum
  Lac := b.Lac <|> a.Lac
  Cid := b.Cid <|> a.Cid
  Rssi := b.Rssi <|> a.Rssi
  TimeAdv := b.TimeAdv <|> a.TimeAdv
  Mcc := b.Mcc <|> a.Mcc
  Mnc := b.Mnc <|> a.Mnc
  XXX_unrecognized := a.XXX_unrecognized ++ b.XXX_unrecognized

def SensNdNavData.merge (a b : SensNdNavData) : SensNdNavData where
  SensNum := b.SensNum <|> a.SensNum
  Longitude := b.Longitude <|> a.Longitude
  Latitude := b.Latitude <|> a.Latitude
  Altitude := b.Altitude <|> a.Altitude
  Speed := b.Speed <|> a.Speed
  Course := b.Course <|> a.Course
  SatCount := b.SatCount <|> a.SatCount
  Pdop := b.Pdop <|> a.Pdop
  Track := b.Track <|> a.Track
  Odometer := b.Odometer <|> a.Odometer
  XXX_unrecognized := a.XXX_unrecognized ++ b.XXX_unrecognized

def SensStorInfo.merge (a b : SensStorInfo) : SensStorInfo where
  SensNum := b.SensNum <|> a.SensNum
  IdMax := b.IdMax <|> a.IdMax
  IdMin := b.IdMin <|> a.IdMin
  TmOldest := b.TmOldest <|> a.TmOldest
  TmOldestUnack := b.TmOldestUnack <|> a.TmOldestUnack
  CntUnack := b.CntUnack <|> a.CntUnack
  CntUnackLosted := b.CntUnackLosted <|> a.CntUnackLosted
  XXX_unrecognized := a.XXX_unrecognized ++ b.XXX_unrecognized

def SensTermoData.merge (a b : SensTermoData) : SensTermoData where
  SensNum := b.SensNum <|> a.SensNum
  Status := b.Status <|> a.Status
  Temperature := b.Temperature <|> a.Temperature
  XXX_unrecognized := a.XXX_unrecognized ++ b.XXX_unrecognized

def SensTestEraTests.merge (a b : SensTestEraTests) : SensTestEraTests where
  SensNum := b.SensNum <|> a.SensNum
  MicConFailure := b.MicConFailure <|> a.MicConFailure
  MicFailure := b.MicFailure <|> a.MicFailure
  IgnitionFailure := b.IgnitionFailure <|> a.IgnitionFailure
  UimFailure := b.UimFailure <|> a.UimFailure
  BatFailure := b.BatFailure <|> a.BatFailure
  BatVoltLow := b.BatVoltLow <|> a.BatVoltLow
  CrashSensFailure := b.CrashSensFailure <|> a.CrashSensFailure
  RaimProblem := b.RaimProblem <|> a.RaimProblem
  GnssAntennaFailure := b.GnssAntennaFailure <|> a.GnssAntennaFailure
  EventsMemoryOverflow := b.EventsMemoryOverflow <|> a.EventsMemoryOverflow
  XXX_unrecognized := a.XXX_unrecognized ++ b.XXX_unrecognized

def SensTrackerInfo.merge (a b : SensTrackerInfo) : SensTrackerInfo where
  SensNum := b.SensNum <|> a.SensNum
  CntAck := b.CntAck <|> a.CntAck
  CntAckRealtime := b.CntAckRealtime <|> a.CntAckRealtime
  CntNoack := b.CntNoack <|> a.CntNoack
  CntConnect := b.CntConnect <|> a.CntConnect
  XXX_unrecognized := a.XXX_unrecognized ++ b.XXX_unrecognized

def StorageRecord.merge (a b : StorageRecord) : StorageRecord where
  RecordNumber := b.RecordNumber <|> a.RecordNumber
  TimeStamp := b.TimeStamp <|> a.TimeStamp
  RecordReason := a.RecordReason ++ b.RecordReason
  StatusFlags := b.StatusFlags <|> a.StatusFlags
  SensAccelerometerData := a.SensAccelerometerData ++ b.SensAccelerometerData
  SensAinAinValue := a.SensAinAinValue ++ b.SensAinAinValue
  SensBufferData := a.SensBufferData ++ b.SensBufferData
  SensButtonPressCounter := a.SensButtonPressCounter ++ b.SensButtonPressCounter
  SensCanLogData := a.SensCanLogData ++ b.SensCanLogData
  SensCanLogTmpDataExt := a.SensCanLogTmpDataExt ++ b.SensCanLogTmpDataExt
  SensCounterCount := a.SensCounterCount ++ b.SensCounterCount
  SensCrashData := a.SensCrashData ++ b.SensCrashData
  SensDinsFlags := a.SensDinsFlags ++ b.SensDinsFlags
  SensDoutsFlags := a.SensDoutsFlags ++ b.SensDoutsFlags
  SensFmeterFrequency := a.SensFmeterFrequency ++ b.SensFmeterFrequency
  SensFuelLevel := a.SensFuelLevel ++ b.SensFuelLevel
  SensGsmCellMonotoringCellMonitoring := a.SensGsmCellMonotoringCellMonitoring ++ b.SensGsmCellMonotoringCellMonitoring
  SensNdNavData := a.SensNdNavData ++ b.SensNdNavData
  SensStorInfo := a.SensStorInfo ++ b.SensStorInfo
  SensTermoData := a.SensTermoData ++ b.SensTermoData
  SensTestEraTests := a.SensTestEraTests ++ b.SensTestEraTests
  SensTrackerInfo := a.SensTrackerInfo ++ b.SensTrackerInfo
  XXX_unrecognized := a.XXX_unrecognized ++ b.XXX_unrecognized

/-- the bytes `b`, a sequence of fields in any order, say `m`: some fields in ascending order (in particular a single one), without
unknown ones, encoded by `wire`; one sequence after the other -/
inductive SubSays {T : Type} (wire : T → Bytes) (plain : T → Prop) (merge : T → T → T) : Bytes → T → Prop
  | fields (m : T) (h : plain m) : SubSays wire plain merge (wire m) m
  | append (a b : Bytes) (m n : T) (ha : SubSays wire plain merge a m) (hb : SubSays wire plain merge b n) :
      SubSays wire plain merge (a ++ b) (merge m n)

/-- a field with a submessage -/
def nested (num : Nat) (b : Bytes) : Bytes := key num 2 ++ (base128 b.length ++ b)

/-- the bytes `b`, a sequence of fields in any order, say `m`:
the required fields, in any order; one reason; several reasons in one field ("packed");
a submessage, its fields in any order; a number in a field the schema does not know, which is kept;
one sequence after the other -/
inductive StorageSays : Bytes → StorageRecord → Prop
  | nothing : StorageSays [] {}
  | recordNumber (n : UInt32) : StorageSays (key 1 0 ++ value .uint32 (.u n)) { RecordNumber := some n }
  | timeStamp (n : UInt32) : StorageSays (key 2 5 ++ value .fixed32 (.u n)) { TimeStamp := some n }
  | statusFlags (n : UInt32) : StorageSays (key 4 5 ++ value .fixed32 (.u n)) { StatusFlags := some n }
  | reason (x : Int32) : StorageSays (key 3 0 ++ value .enum (.i x)) { RecordReason := [x] }
  | packed (l : List Int32) : StorageSays (nested 3 (l.flatMap fun x => value .enum (.i x))) { RecordReason := l }
  | sensNdNavData (b : Bytes) (m : SensNdNavData) (h : SubSays SensNdNavData.wire (·.XXX_unrecognized = []) SensNdNavData.merge b m) :
      StorageSays (nested 7 b) { SensNdNavData := [m] }
  | sensFuelLevel (b : Bytes) (m : SensFuelLevel) (h : SubSays SensFuelLevel.wire (·.XXX_unrecognized = []) SensFuelLevel.merge b m) :
      StorageSays (nested 8 b) { SensFuelLevel := [m] }
  | sensAinAinValue (b : Bytes) (m : SensAinAinValue) (h : SubSays SensAinAinValue.wire (·.XXX_unrecognized = []) SensAinAinValue.merge b m) :
      StorageSays (nested 9 b) { SensAinAinValue := [m] }
  | sensDinsFlags (b : Bytes) (m : SensDinsFlags) (h : SubSays SensDinsFlags.wire (·.XXX_unrecognized = []) SensDinsFlags.merge b m) :
      StorageSays (nested 10 b) { SensDinsFlags := [m] }
  | sensCounterCount (b : Bytes) (m : SensCounterCount) (h : SubSays SensCounterCount.wire (·.XXX_unrecognized = []) SensCounterCount.merge b m) :
      StorageSays (nested 11 b) { SensCounterCount := [m] }
  | sensFmeterFrequency (b : Bytes) (m : SensFmeterFrequency) (h : SubSays SensFmeterFrequency.wire (·.XXX_unrecognized = []) SensFmeterFrequency.merge b m) :
      StorageSays (nested 12 b) { SensFmeterFrequency := [m] }
  | sensGsmCellMonotoringCellMonitoring (b : Bytes) (m : SensGsmCellMonotoringCellMonitoring) (h : SubSays SensGsmCellMonotoringCellMonitoring.wire (·.XXX_unrecognized = []) SensGsmCellMonotoringCellMonitoring.merge b m) :
      StorageSays (nested 13 b) { SensGsmCellMonotoringCellMonitoring := [m] }
  | sensButtonPressCounter (b : Bytes) (m : SensButtonPressCounter) (h : SubSays SensButtonPressCounter.wire (·.XXX_unrecognized = []) SensButtonPressCounter.merge b m) :
      StorageSays (nested 14 b) { SensButtonPressCounter := [m] }
  | sensTermoData (b : Bytes) (m : SensTermoData) (h : SubSays SensTermoData.wire (·.XXX_unrecognized = []) SensTermoData.merge b m) :
      StorageSays (nested 15 b) { SensTermoData := [m] }
  | sensCanLogData (b : Bytes) (m : SensCanLogData) (h : SubSays SensCanLogData.wire (·.XXX_unrecognized = []) SensCanLogData.merge b m) :
      StorageSays (nested 16 b) { SensCanLogData := [m] }
  | sensCanLogTmpDataExt (b : Bytes) (m : SensCanLogTmpDataExt) (h : SubSays SensCanLogTmpDataExt.wire (·.XXX_unrecognized = []) SensCanLogTmpDataExt.merge b m) :
      StorageSays (nested 17 b) { SensCanLogTmpDataExt := [m] }
  | sensAccelerometerData (b : Bytes) (m : SensAccelerometerData) (h : SubSays SensAccelerometerData.wire (·.XXX_unrecognized = []) SensAccelerometerData.merge b m) :
      StorageSays (nested 18 b) { SensAccelerometerData := [m] }
  | sensDoutsFlags (b : Bytes) (m : SensDoutsFlags) (h : SubSays SensDoutsFlags.wire (·.XXX_unrecognized = []) SensDoutsFlags.merge b m) :
      StorageSays (nested 19 b) { SensDoutsFlags := [m] }
  | sensBufferData (b : Bytes) (m : SensBufferData) (h : SubSays SensBufferData.wire (·.XXX_unrecognized = []) SensBufferData.merge b m) :
      StorageSays (nested 20 b) { SensBufferData := [m] }
  | sensStorInfo (b : Bytes) (m : SensStorInfo) (h : SubSays SensStorInfo.wire (·.XXX_unrecognized = []) SensStorInfo.merge b m) :
      StorageSays (nested 21 b) { SensStorInfo := [m] }
  | sensTrackerInfo (b : Bytes) (m : SensTrackerInfo) (h : SubSays SensTrackerInfo.wire (·.XXX_unrecognized = []) SensTrackerInfo.merge b m) :
      StorageSays (nested 22 b) { SensTrackerInfo := [m] }
  | sensTestEraTests (b : Bytes) (m : SensTestEraTests) (h : SubSays SensTestEraTests.wire (·.XXX_unrecognized = []) SensTestEraTests.merge b m) :
      StorageSays (nested 23 b) { SensTestEraTests := [m] }
  | sensCrashData (b : Bytes) (m : SensCrashData) (h : SubSays SensCrashData.wire (·.XXX_unrecognized = []) SensCrashData.merge b m) :
      StorageSays (nested 24 b) { SensCrashData := [m] }
  | unknown (num n : Nat) (h : num = 5 ∨ num = 6 ∨ 25 ≤ num ∧ num < 2 ^ 29) (hn : n < 2 ^ 64) :
      StorageSays (key num 0 ++ base128 n) { XXX_unrecognized := key num 0 ++ base128 n }
  | append (a b : Bytes) (m n : StorageRecord) (ha : StorageSays a m) (hb : StorageSays b n) : StorageSays (a ++ b) (m.merge n)

end Egts
