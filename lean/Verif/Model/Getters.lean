import Verif.Model.StorageRecord
import Verif.Model.Storage
set_option autoImplicit false
/- Model of the getters of libs/egts/egts_sr_egtsplus_data.go. Written by tools/gengetters.py from the Go source. A receiver is an option (`none` is a nil
pointer); a float32 is represented by its bits; a nil slice of messages or reasons is the empty list. -/
namespace Egts
open PB (Val)

/-- what a getter returns: a number, truth value or byte slice (nil is empty); the reasons; for a slice of messages what the getters of each of them return (the result types of the getters, egts_sr_egtsplus_data.go:266-1352) -/
inductive Told where
  | val (v : Val)
  | enums (l : List Int32)
  | msgs (l : List (List (Bytes × Val)))

/-- egts_sr_egtsplus_data.go:266-271 -/
def StorageRecord.GetRecordNumber (m : Option StorageRecord) : UInt32 :=
  match m with
  | some m => (match m.RecordNumber with | some v => v | none => 0)
  | none => 0

/-- egts_sr_egtsplus_data.go:273-278 -/
def StorageRecord.GetTimeStamp (m : Option StorageRecord) : UInt32 :=
  match m with
  | some m => (match m.TimeStamp with | some v => v | none => 0)
  | none => 0

/-- egts_sr_egtsplus_data.go:280-285 -/
def StorageRecord.GetRecordReason (m : Option StorageRecord) : List Int32 :=
  match m with
  | some m => m.RecordReason
  | none => []

/-- egts_sr_egtsplus_data.go:287-292 -/
def StorageRecord.GetStatusFlags (m : Option StorageRecord) : UInt32 :=
  match m with
  | some m => (match m.StatusFlags with | some v => v | none => 0)
  | none => 0

/-- egts_sr_egtsplus_data.go:294-299 -/
def StorageRecord.GetSensAccelerometerData (m : Option StorageRecord) : List Egts.SensAccelerometerData :=
  match m with
  | some m => m.SensAccelerometerData
  | none => []

/-- egts_sr_egtsplus_data.go:301-306 -/
def StorageRecord.GetSensAinAinValue (m : Option StorageRecord) : List Egts.SensAinAinValue :=
  match m with
  | some m => m.SensAinAinValue
  | none => []

/-- egts_sr_egtsplus_data.go:308-313 -/
def StorageRecord.GetSensBufferData (m : Option StorageRecord) : List Egts.SensBufferData :=
  match m with
  | some m => m.SensBufferData
  | none => []

/-- egts_sr_egtsplus_data.go:315-320 -/
def StorageRecord.GetSensButtonPressCounter (m : Option StorageRecord) : List Egts.SensButtonPressCounter :=
  match m with
  | some m => m.SensButtonPressCounter
  | none => []

/-- egts_sr_egtsplus_data.go:322-327 -/
def StorageRecord.GetSensCanLogData (m : Option StorageRecord) : List Egts.SensCanLogData :=
  match m with
  | some m => m.SensCanLogData
  | none => []

/-- egts_sr_egtsplus_data.go:329-334 -/
def StorageRecord.GetSensCanLogTmpDataExt (m : Option StorageRecord) : List Egts.SensCanLogTmpDataExt :=
  match m with
  | some m => m.SensCanLogTmpDataExt
  | none => []

/-- egts_sr_egtsplus_data.go:336-341 -/
def StorageRecord.GetSensCounterCount (m : Option StorageRecord) : List Egts.SensCounterCount :=
  match m with
  | some m => m.SensCounterCount
  | none => []

/-- egts_sr_egtsplus_data.go:343-348 -/
def StorageRecord.GetSensCrashData (m : Option StorageRecord) : List Egts.SensCrashData :=
  match m with
  | some m => m.SensCrashData
  | none => []

/-- egts_sr_egtsplus_data.go:350-355 -/
def StorageRecord.GetSensDinsFlags (m : Option StorageRecord) : List Egts.SensDinsFlags :=
  match m with
  | some m => m.SensDinsFlags
  | none => []

/-- egts_sr_egtsplus_data.go:357-362 -/
def StorageRecord.GetSensDoutsFlags (m : Option StorageRecord) : List Egts.SensDoutsFlags :=
  match m with
  | some m => m.SensDoutsFlags
  | none => []

/-- egts_sr_egtsplus_data.go:364-369 -/
def StorageRecord.GetSensFmeterFrequency (m : Option StorageRecord) : List Egts.SensFmeterFrequency :=
  match m with
  | some m => m.SensFmeterFrequency
  | none => []

/-- egts_sr_egtsplus_data.go:371-376 -/
def StorageRecord.GetSensFuelLevel (m : Option StorageRecord) : List Egts.SensFuelLevel :=
  match m with
  | some m => m.SensFuelLevel
  | none => []

/-- egts_sr_egtsplus_data.go:378-383 -/
def StorageRecord.GetSensGsmCellMonotoringCellMonitoring (m : Option StorageRecord) : List Egts.SensGsmCellMonotoringCellMonitoring :=
  match m with
  | some m => m.SensGsmCellMonotoringCellMonitoring
  | none => []

/-- egts_sr_egtsplus_data.go:385-390 -/
def StorageRecord.GetSensNdNavData (m : Option StorageRecord) : List Egts.SensNdNavData :=
  match m with
  | some m => m.SensNdNavData
  | none => []

/-- egts_sr_egtsplus_data.go:392-397 -/
def StorageRecord.GetSensStorInfo (m : Option StorageRecord) : List Egts.SensStorInfo :=
  match m with
  | some m => m.SensStorInfo
  | none => []

/-- egts_sr_egtsplus_data.go:399-404 -/
def StorageRecord.GetSensTermoData (m : Option StorageRecord) : List Egts.SensTermoData :=
  match m with
  | some m => m.SensTermoData
  | none => []

/-- egts_sr_egtsplus_data.go:406-411 -/
def StorageRecord.GetSensTestEraTests (m : Option StorageRecord) : List Egts.SensTestEraTests :=
  match m with
  | some m => m.SensTestEraTests
  | none => []

/-- egts_sr_egtsplus_data.go:413-418 -/
def StorageRecord.GetSensTrackerInfo (m : Option StorageRecord) : List Egts.SensTrackerInfo :=
  match m with
  | some m => m.SensTrackerInfo
  | none => []

/-- egts_sr_egtsplus_data.go:437-442 -/
def SensAccelerometerData.GetSensNum (m : Option SensAccelerometerData) : UInt32 :=
  match m with
  | some m => (match m.SensNum with | some v => v | none => 0)
  | none => 0

/-- egts_sr_egtsplus_data.go:444-449 -/
def SensAccelerometerData.GetBuf (m : Option SensAccelerometerData) : Option Bytes :=
  match m with
  | some m => m.Buf
  | none => none

/-- egts_sr_egtsplus_data.go:451-456 -/
def SensAccelerometerData.GetAtm (m : Option SensAccelerometerData) : UInt32 :=
  match m with
  | some m => (match m.Atm with | some v => v | none => 0)
  | none => 0

/-- egts_sr_egtsplus_data.go:458-463 -/
def SensAccelerometerData.GetFrequency (m : Option SensAccelerometerData) : UInt32 :=
  match m with
  | some m => (match m.Frequency with | some v => v | none => 0)
  | none => 0

/-- egts_sr_egtsplus_data.go:465-470 -/
def SensAccelerometerData.GetRange (m : Option SensAccelerometerData) : UInt32 :=
  match m with
  | some m => (match m.Range with | some v => v | none => 0)
  | none => 0

/-- egts_sr_egtsplus_data.go:472-477 -/
def SensAccelerometerData.GetFormat (m : Option SensAccelerometerData) : UInt32 :=
  match m with
  | some m => (match m.Format with | some v => v | none => 0)
  | none => 0

/-- egts_sr_egtsplus_data.go:479-484 -/
def SensAccelerometerData.GetZlib (m : Option SensAccelerometerData) : UInt32 :=
  match m with
  | some m => (match m.Zlib with | some v => v | none => 0)
  | none => 0

/-- egts_sr_egtsplus_data.go:498-503 -/
def SensAinAinValue.GetSensNum (m : Option SensAinAinValue) : UInt32 :=
  match m with
  | some m => (match m.SensNum with | some v => v | none => 0)
  | none => 0

/-- egts_sr_egtsplus_data.go:505-510 -/
def SensAinAinValue.GetMv (m : Option SensAinAinValue) : UInt32 :=
  match m with
  | some m => (match m.Mv with | some v => v | none => 0)
  | none => 0

/-- egts_sr_egtsplus_data.go:525-530 -/
def SensBufferData.GetSensNum (m : Option SensBufferData) : UInt32 :=
  match m with
  | some m => (match m.SensNum with | some v => v | none => 0)
  | none => 0

/-- egts_sr_egtsplus_data.go:532-537 -/
def SensBufferData.GetData (m : Option SensBufferData) : Option Bytes :=
  match m with
  | some m => m.Data
  | none => none

/-- egts_sr_egtsplus_data.go:539-544 -/
def SensBufferData.GetIsPacked (m : Option SensBufferData) : Bool :=
  match m with
  | some m => (match m.IsPacked with | some v => v | none => false)
  | none => false

/-- egts_sr_egtsplus_data.go:558-563 -/
def SensButtonPressCounter.GetSensNum (m : Option SensButtonPressCounter) : UInt32 :=
  match m with
  | some m => (match m.SensNum with | some v => v | none => 0)
  | none => 0

/-- egts_sr_egtsplus_data.go:565-570 -/
def SensButtonPressCounter.GetState (m : Option SensButtonPressCounter) : Bool :=
  match m with
  | some m => (match m.State with | some v => v | none => false)
  | none => false

/-- egts_sr_egtsplus_data.go:597-602 -/
def SensCanLogData.GetSensNum (m : Option SensCanLogData) : UInt32 :=
  match m with
  | some m => (match m.SensNum with | some v => v | none => 0)
  | none => 0

/-- egts_sr_egtsplus_data.go:604-609 -/
def SensCanLogData.GetFlagSecurityState (m : Option SensCanLogData) : UInt32 :=
  match m with
  | some m => (match m.FlagSecurityState with | some v => v | none => 0)
  | none => 0

/-- egts_sr_egtsplus_data.go:611-616 -/
def SensCanLogData.GetFlagAlarm (m : Option SensCanLogData) : UInt32 :=
  match m with
  | some m => (match m.FlagAlarm with | some v => v | none => 0)
  | none => 0

/-- egts_sr_egtsplus_data.go:618-623 -/
def SensCanLogData.GetEngineTimeAll (m : Option SensCanLogData) : UInt32 :=
  match m with
  | some m => (match m.EngineTimeAll with | some v => v | none => 0)
  | none => 0

/-- egts_sr_egtsplus_data.go:625-630 -/
def SensCanLogData.GetEngineTurnSpeed (m : Option SensCanLogData) : UInt32 :=
  match m with
  | some m => (match m.EngineTurnSpeed with | some v => v | none => 0)
  | none => 0

/-- egts_sr_egtsplus_data.go:632-637 -/
def SensCanLogData.GetEngineTemperature (m : Option SensCanLogData) : Int32 :=
  match m with
  | some m => (match m.EngineTemperature with | some v => v | none => 0)
  | none => 0

/-- egts_sr_egtsplus_data.go:639-644 -/
def SensCanLogData.GetFuelConsumptionAll (m : Option SensCanLogData) : UInt32 :=
  match m with
  | some m => (match m.FuelConsumptionAll with | some v => v | none => 0)
  | none => 0

/-- egts_sr_egtsplus_data.go:646-651 -/
def SensCanLogData.GetFuelLevel (m : Option SensCanLogData) : UInt32 :=
  match m with
  | some m => (match m.FuelLevel with | some v => v | none => 0)
  | none => 0

/-- egts_sr_egtsplus_data.go:653-658 -/
def SensCanLogData.GetTrackAll (m : Option SensCanLogData) : UInt32 :=
  match m with
  | some m => (match m.TrackAll with | some v => v | none => 0)
  | none => 0

/-- egts_sr_egtsplus_data.go:660-665 -/
def SensCanLogData.GetSpeed (m : Option SensCanLogData) : UInt32 :=
  match m with
  | some m => (match m.Speed with | some v => v | none => 0)
  | none => 0

/-- egts_sr_egtsplus_data.go:667-672 -/
def SensCanLogData.GetPressureAxis_1 (m : Option SensCanLogData) : UInt32 :=
  match m with
  | some m => (match m.PressureAxis_1 with | some v => v | none => 0)
  | none => 0

/-- egts_sr_egtsplus_data.go:674-679 -/
def SensCanLogData.GetPressureAxis_2 (m : Option SensCanLogData) : UInt32 :=
  match m with
  | some m => (match m.PressureAxis_2 with | some v => v | none => 0)
  | none => 0

/-- egts_sr_egtsplus_data.go:681-686 -/
def SensCanLogData.GetPressureAxis_3 (m : Option SensCanLogData) : UInt32 :=
  match m with
  | some m => (match m.PressureAxis_3 with | some v => v | none => 0)
  | none => 0

/-- egts_sr_egtsplus_data.go:688-693 -/
def SensCanLogData.GetPressureAxis_4 (m : Option SensCanLogData) : UInt32 :=
  match m with
  | some m => (match m.PressureAxis_4 with | some v => v | none => 0)
  | none => 0

/-- egts_sr_egtsplus_data.go:695-700 -/
def SensCanLogData.GetPressureAxis_5 (m : Option SensCanLogData) : UInt32 :=
  match m with
  | some m => (match m.PressureAxis_5 with | some v => v | none => 0)
  | none => 0

/-- egts_sr_egtsplus_data.go:715-720 -/
def SensCanLogTmpDataExt.GetSensNum (m : Option SensCanLogTmpDataExt) : UInt32 :=
  match m with
  | some m => (match m.SensNum with | some v => v | none => 0)
  | none => 0

/-- egts_sr_egtsplus_data.go:722-727 -/
def SensCanLogTmpDataExt.GetFlagsHigh (m : Option SensCanLogTmpDataExt) : UInt32 :=
  match m with
  | some m => (match m.FlagsHigh with | some v => v | none => 0)
  | none => 0

/-- egts_sr_egtsplus_data.go:729-734 -/
def SensCanLogTmpDataExt.GetFlagsLow (m : Option SensCanLogTmpDataExt) : UInt32 :=
  match m with
  | some m => (match m.FlagsLow with | some v => v | none => 0)
  | none => 0

/-- egts_sr_egtsplus_data.go:748-753 -/
def SensCounterCount.GetSensNum (m : Option SensCounterCount) : UInt32 :=
  match m with
  | some m => (match m.SensNum with | some v => v | none => 0)
  | none => 0

/-- egts_sr_egtsplus_data.go:755-760 -/
def SensCounterCount.GetValue (m : Option SensCounterCount) : UInt32 :=
  match m with
  | some m => (match m.Value with | some v => v | none => 0)
  | none => 0

/-- egts_sr_egtsplus_data.go:775-780 -/
def SensCrashData.GetSensNum (m : Option SensCrashData) : UInt32 :=
  match m with
  | some m => (match m.SensNum with | some v => v | none => 0)
  | none => 0

/-- egts_sr_egtsplus_data.go:782-787 -/
def SensCrashData.GetEnergy (m : Option SensCrashData) : UInt32 :=
  match m with
  | some m => (match m.Energy with | some v => v | none => 0)
  | none => 0

/-- egts_sr_egtsplus_data.go:789-794 -/
def SensCrashData.GetIsOverturned (m : Option SensCrashData) : Bool :=
  match m with
  | some m => (match m.IsOverturned with | some v => v | none => false)
  | none => false

/-- egts_sr_egtsplus_data.go:809-814 -/
def SensDinsFlags.GetSensNum (m : Option SensDinsFlags) : UInt32 :=
  match m with
  | some m => (match m.SensNum with | some v => v | none => 0)
  | none => 0

/-- egts_sr_egtsplus_data.go:816-821 -/
def SensDinsFlags.GetDevice (m : Option SensDinsFlags) : UInt32 :=
  match m with
  | some m => (match m.Device with | some v => v | none => 0)
  | none => 0

/-- egts_sr_egtsplus_data.go:823-828 -/
def SensDinsFlags.GetExternal (m : Option SensDinsFlags) : UInt32 :=
  match m with
  | some m => (match m.External with | some v => v | none => 0)
  | none => 0

/-- egts_sr_egtsplus_data.go:843-848 -/
def SensDoutsFlags.GetSensNum (m : Option SensDoutsFlags) : UInt32 :=
  match m with
  | some m => (match m.SensNum with | some v => v | none => 0)
  | none => 0

/-- egts_sr_egtsplus_data.go:850-855 -/
def SensDoutsFlags.GetDevice (m : Option SensDoutsFlags) : UInt32 :=
  match m with
  | some m => (match m.Device with | some v => v | none => 0)
  | none => 0

/-- egts_sr_egtsplus_data.go:857-862 -/
def SensDoutsFlags.GetExternal (m : Option SensDoutsFlags) : UInt32 :=
  match m with
  | some m => (match m.External with | some v => v | none => 0)
  | none => 0

/-- egts_sr_egtsplus_data.go:876-881 -/
def SensFmeterFrequency.GetSensNum (m : Option SensFmeterFrequency) : UInt32 :=
  match m with
  | some m => (match m.SensNum with | some v => v | none => 0)
  | none => 0

/-- egts_sr_egtsplus_data.go:883-888 -/
def SensFmeterFrequency.GetValue (m : Option SensFmeterFrequency) : UInt32 :=
  match m with
  | some m => (match m.Value with | some v => v | none => 0)
  | none => 0

/-- egts_sr_egtsplus_data.go:906-911 -/
def SensFuelLevel.GetSensNum (m : Option SensFuelLevel) : UInt32 :=
  match m with
  | some m => (match m.SensNum with | some v => v | none => 0)
  | none => 0

/-- egts_sr_egtsplus_data.go:913-918 -/
def SensFuelLevel.GetValue (m : Option SensFuelLevel) : UInt32 :=
  match m with
  | some m => (match m.Value with | some v => v | none => 0)
  | none => 0

/-- egts_sr_egtsplus_data.go:920-925 -/
def SensFuelLevel.GetParrots (m : Option SensFuelLevel) : UInt32 :=
  match m with
  | some m => (match m.Parrots with | some v => v | none => 0)
  | none => 0

/-- egts_sr_egtsplus_data.go:927-932 -/
def SensFuelLevel.GetUnit (m : Option SensFuelLevel) : UInt32 :=
  match m with
  | some m => (match m.Unit with | some v => v | none => 0)
  | none => 0

/-- egts_sr_egtsplus_data.go:934-939 -/
def SensFuelLevel.GetT (m : Option SensFuelLevel) : UInt32 :=
  match m with
  | some m => (match m.T with | some v => v | none => 0)
  | none => 0

/-- egts_sr_egtsplus_data.go:941-946 -/
def SensFuelLevel.GetStatus (m : Option SensFuelLevel) : UInt32 :=
  match m with
  | some m => (match m.Status with | some v => v | none => 0)
  | none => 0

/-- egts_sr_egtsplus_data.go:967-972 -/
def SensGsmCellMonotoringCellMonitoring.GetSensNum (m : Option SensGsmCellMonotoringCellMonitoring) : UInt32 :=
  match m with
  | some m => (match m.SensNum with | some v => v | none => 0)
  | none => 0

/-- egts_sr_egtsplus_data.go:974-979 -/
def SensGsmCellMonotoringCellMonitoring.GetLac (m : Option SensGsmCellMonotoringCellMonitoring) : Option Bytes :=
  match m with
  | some m => m.Lac
  | none => none

/-- egts_sr_egtsplus_data.go:981-986 -/
def SensGsmCellMonotoringCellMonitoring.GetCid (m : Option SensGsmCellMonotoringCellMonitoring) : Option Bytes :=
  match m with
  | some m => m.Cid
  | none => none

/-- egts_sr_egtsplus_data.go:988-993 -/
def SensGsmCellMonotoringCellMonitoring.GetRssi (m : Option SensGsmCellMonotoringCellMonitoring) : Option Bytes :=
  match m with
  | some m => m.Rssi
  | none => none

/-- egts_sr_egtsplus_data.go:995-1000 -/
def SensGsmCellMonotoringCellMonitoring.GetTimeAdv (m : Option SensGsmCellMonotoringCellMonitoring) : Option Bytes :=
  match m with
  | some m => m.TimeAdv
  | none => none

/-- egts_sr_egtsplus_data.go:1002-1007 -/
def SensGsmCellMonotoringCellMonitoring.GetMcc (m : Option SensGsmCellMonotoringCellMonitoring) : UInt32 :=
  match m with
  | some m => (match m.Mcc with | some v => v | none => 0)
  | none => 0

/-- egts_sr_egtsplus_data.go:1009-1014 -/
def SensGsmCellMonotoringCellMonitoring.GetMnc (m : Option SensGsmCellMonotoringCellMonitoring) : UInt32 :=
  match m with
  | some m => (match m.Mnc with | some v => v | none => 0)
  | none => 0

/-- egts_sr_egtsplus_data.go:1036-1041 -/
def SensNdNavData.GetSensNum (m : Option SensNdNavData) : UInt32 :=
  match m with
  | some m => (match m.SensNum with | some v => v | none => 0)
  | none => 0

/-- egts_sr_egtsplus_data.go:1043-1048 -/
def SensNdNavData.GetLongitude (m : Option SensNdNavData) : Int32 :=
  match m with
  | some m => (match m.Longitude with | some v => v | none => 0)
  | none => 0

/-- egts_sr_egtsplus_data.go:1050-1055 -/
def SensNdNavData.GetLatitude (m : Option SensNdNavData) : Int32 :=
  match m with
  | some m => (match m.Latitude with | some v => v | none => 0)
  | none => 0

/-- egts_sr_egtsplus_data.go:1057-1062 -/
def SensNdNavData.GetAltitude (m : Option SensNdNavData) : UInt32 :=
  match m with
  | some m => (match m.Altitude with | some v => v | none => 0)
  | none => 0

/-- egts_sr_egtsplus_data.go:1064-1069 -/
def SensNdNavData.GetSpeed (m : Option SensNdNavData) : UInt32 :=
  match m with
  | some m => (match m.Speed with | some v => v | none => 0)
  | none => 0

/-- egts_sr_egtsplus_data.go:1071-1076 -/
def SensNdNavData.GetCourse (m : Option SensNdNavData) : UInt32 :=
  match m with
  | some m => (match m.Course with | some v => v | none => 0)
  | none => 0

/-- egts_sr_egtsplus_data.go:1078-1083 -/
def SensNdNavData.GetSatCount (m : Option SensNdNavData) : UInt32 :=
  match m with
  | some m => (match m.SatCount with | some v => v | none => 0)
  | none => 0

/-- egts_sr_egtsplus_data.go:1085-1090 -/
def SensNdNavData.GetPdop (m : Option SensNdNavData) : UInt32 :=
  match m with
  | some m => (match m.Pdop with | some v => v | none => 0)
  | none => 0

/-- egts_sr_egtsplus_data.go:1092-1097 -/
def SensNdNavData.GetTrack (m : Option SensNdNavData) : UInt32 :=
  match m with
  | some m => (match m.Track with | some v => v | none => 0)
  | none => 0

/-- egts_sr_egtsplus_data.go:1099-1104 -/
def SensNdNavData.GetOdometer (m : Option SensNdNavData) : UInt32 :=
  match m with
  | some m => (match m.Odometer with | some v => v | none => 0)
  | none => 0

/-- egts_sr_egtsplus_data.go:1123-1128 -/
def SensStorInfo.GetSensNum (m : Option SensStorInfo) : UInt32 :=
  match m with
  | some m => (match m.SensNum with | some v => v | none => 0)
  | none => 0

/-- egts_sr_egtsplus_data.go:1130-1135 -/
def SensStorInfo.GetIdMax (m : Option SensStorInfo) : UInt32 :=
  match m with
  | some m => (match m.IdMax with | some v => v | none => 0)
  | none => 0

/-- egts_sr_egtsplus_data.go:1137-1142 -/
def SensStorInfo.GetIdMin (m : Option SensStorInfo) : UInt32 :=
  match m with
  | some m => (match m.IdMin with | some v => v | none => 0)
  | none => 0

/-- egts_sr_egtsplus_data.go:1144-1149 -/
def SensStorInfo.GetTmOldest (m : Option SensStorInfo) : UInt32 :=
  match m with
  | some m => (match m.TmOldest with | some v => v | none => 0)
  | none => 0

/-- egts_sr_egtsplus_data.go:1151-1156 -/
def SensStorInfo.GetTmOldestUnack (m : Option SensStorInfo) : UInt32 :=
  match m with
  | some m => (match m.TmOldestUnack with | some v => v | none => 0)
  | none => 0

/-- egts_sr_egtsplus_data.go:1158-1163 -/
def SensStorInfo.GetCntUnack (m : Option SensStorInfo) : UInt32 :=
  match m with
  | some m => (match m.CntUnack with | some v => v | none => 0)
  | none => 0

/-- egts_sr_egtsplus_data.go:1165-1170 -/
def SensStorInfo.GetCntUnackLosted (m : Option SensStorInfo) : UInt32 :=
  match m with
  | some m => (match m.CntUnackLosted with | some v => v | none => 0)
  | none => 0

/-- egts_sr_egtsplus_data.go:1185-1190 -/
def SensTermoData.GetSensNum (m : Option SensTermoData) : UInt32 :=
  match m with
  | some m => (match m.SensNum with | some v => v | none => 0)
  | none => 0

/-- egts_sr_egtsplus_data.go:1192-1197 -/
def SensTermoData.GetStatus (m : Option SensTermoData) : UInt32 :=
  match m with
  | some m => (match m.Status with | some v => v | none => 0)
  | none => 0

/-- egts_sr_egtsplus_data.go:1199-1204 -/
def SensTermoData.GetTemperature (m : Option SensTermoData) : Int32 :=
  match m with
  | some m => (match m.Temperature with | some v => v | none => 0)
  | none => 0

/-- egts_sr_egtsplus_data.go:1227-1232 -/
def SensTestEraTests.GetSensNum (m : Option SensTestEraTests) : UInt32 :=
  match m with
  | some m => (match m.SensNum with | some v => v | none => 0)
  | none => 0

/-- egts_sr_egtsplus_data.go:1234-1239 -/
def SensTestEraTests.GetMicConFailure (m : Option SensTestEraTests) : Bool :=
  match m with
  | some m => (match m.MicConFailure with | some v => v | none => false)
  | none => false

/-- egts_sr_egtsplus_data.go:1241-1246 -/
def SensTestEraTests.GetMicFailure (m : Option SensTestEraTests) : Bool :=
  match m with
  | some m => (match m.MicFailure with | some v => v | none => false)
  | none => false

/-- egts_sr_egtsplus_data.go:1248-1253 -/
def SensTestEraTests.GetIgnitionFailure (m : Option SensTestEraTests) : Bool :=
  match m with
  | some m => (match m.IgnitionFailure with | some v => v | none => false)
  | none => false

/-- egts_sr_egtsplus_data.go:1255-1260 -/
def SensTestEraTests.GetUimFailure (m : Option SensTestEraTests) : Bool :=
  match m with
  | some m => (match m.UimFailure with | some v => v | none => false)
  | none => false

/-- egts_sr_egtsplus_data.go:1262-1267 -/
def SensTestEraTests.GetBatFailure (m : Option SensTestEraTests) : Bool :=
  match m with
  | some m => (match m.BatFailure with | some v => v | none => false)
  | none => false

/-- egts_sr_egtsplus_data.go:1269-1274 -/
def SensTestEraTests.GetBatVoltLow (m : Option SensTestEraTests) : Bool :=
  match m with
  | some m => (match m.BatVoltLow with | some v => v | none => false)
  | none => false

/-- egts_sr_egtsplus_data.go:1276-1281 -/
def SensTestEraTests.GetCrashSensFailure (m : Option SensTestEraTests) : Bool :=
  match m with
  | some m => (match m.CrashSensFailure with | some v => v | none => false)
  | none => false

/-- egts_sr_egtsplus_data.go:1283-1288 -/
def SensTestEraTests.GetRaimProblem (m : Option SensTestEraTests) : Bool :=
  match m with
  | some m => (match m.RaimProblem with | some v => v | none => false)
  | none => false

/-- egts_sr_egtsplus_data.go:1290-1295 -/
def SensTestEraTests.GetGnssAntennaFailure (m : Option SensTestEraTests) : Bool :=
  match m with
  | some m => (match m.GnssAntennaFailure with | some v => v | none => false)
  | none => false

/-- egts_sr_egtsplus_data.go:1297-1302 -/
def SensTestEraTests.GetEventsMemoryOverflow (m : Option SensTestEraTests) : Bool :=
  match m with
  | some m => (match m.EventsMemoryOverflow with | some v => v | none => false)
  | none => false

/-- egts_sr_egtsplus_data.go:1319-1324 -/
def SensTrackerInfo.GetSensNum (m : Option SensTrackerInfo) : UInt32 :=
  match m with
  | some m => (match m.SensNum with | some v => v | none => 0)
  | none => 0

/-- egts_sr_egtsplus_data.go:1326-1331 -/
def SensTrackerInfo.GetCntAck (m : Option SensTrackerInfo) : UInt32 :=
  match m with
  | some m => (match m.CntAck with | some v => v | none => 0)
  | none => 0

/-- egts_sr_egtsplus_data.go:1333-1338 -/
def SensTrackerInfo.GetCntAckRealtime (m : Option SensTrackerInfo) : UInt32 :=
  match m with
  | some m => (match m.CntAckRealtime with | some v => v | none => 0)
  | none => 0

/-- egts_sr_egtsplus_data.go:1340-1345 -/
def SensTrackerInfo.GetCntNoack (m : Option SensTrackerInfo) : UInt32 :=
  match m with
  | some m => (match m.CntNoack with | some v => v | none => 0)
  | none => 0

/-- egts_sr_egtsplus_data.go:1347-1352 -/
def SensTrackerInfo.GetCntConnect (m : Option SensTrackerInfo) : UInt32 :=
  match m with
  | some m => (match m.CntConnect with | some v => v | none => 0)
  | none => 0

/-- the getters of `SensAccelerometerData`, by name (egts_sr_egtsplus_data.go:437-484) -/
def SensAccelerometerData.getters (m : Option SensAccelerometerData) : List (Bytes × Val) := [
  (asc "GetSensNum", .u (SensAccelerometerData.GetSensNum m)),
  (asc "GetBuf", .s ((SensAccelerometerData.GetBuf m).getD [])),
  (asc "GetAtm", .u (SensAccelerometerData.GetAtm m)),
  (asc "GetFrequency", .u (SensAccelerometerData.GetFrequency m)),
  (asc "GetRange", .u (SensAccelerometerData.GetRange m)),
  (asc "GetFormat", .u (SensAccelerometerData.GetFormat m)),
  (asc "GetZlib", .u (SensAccelerometerData.GetZlib m))]

/-- the getters of `SensAinAinValue`, by name (egts_sr_egtsplus_data.go:498-510) -/
def SensAinAinValue.getters (m : Option SensAinAinValue) : List (Bytes × Val) := [
  (asc "GetSensNum", .u (SensAinAinValue.GetSensNum m)),
  (asc "GetMv", .u (SensAinAinValue.GetMv m))]

/-- the getters of `SensBufferData`, by name (egts_sr_egtsplus_data.go:525-544) -/
def SensBufferData.getters (m : Option SensBufferData) : List (Bytes × Val) := [
  (asc "GetSensNum", .u (SensBufferData.GetSensNum m)),
  (asc "GetData", .s ((SensBufferData.GetData m).getD [])),
  (asc "GetIsPacked", .b (SensBufferData.GetIsPacked m))]

/-- the getters of `SensButtonPressCounter`, by name (egts_sr_egtsplus_data.go:558-570) -/
def SensButtonPressCounter.getters (m : Option SensButtonPressCounter) : List (Bytes × Val) := [
  (asc "GetSensNum", .u (SensButtonPressCounter.GetSensNum m)),
  (asc "GetState", .b (SensButtonPressCounter.GetState m))]

/-- the getters of `SensCanLogData`, by name (egts_sr_egtsplus_data.go:597-700) -/
def SensCanLogData.getters (m : Option SensCanLogData) : List (Bytes × Val) := [
  (asc "GetSensNum", .u (SensCanLogData.GetSensNum m)),
  (asc "GetFlagSecurityState", .u (SensCanLogData.GetFlagSecurityState m)),
  (asc "GetFlagAlarm", .u (SensCanLogData.GetFlagAlarm m)),
  (asc "GetEngineTimeAll", .u (SensCanLogData.GetEngineTimeAll m)),
  (asc "GetEngineTurnSpeed", .u (SensCanLogData.GetEngineTurnSpeed m)),
  (asc "GetEngineTemperature", .i (SensCanLogData.GetEngineTemperature m)),
  (asc "GetFuelConsumptionAll", .u (SensCanLogData.GetFuelConsumptionAll m)),
  (asc "GetFuelLevel", .u (SensCanLogData.GetFuelLevel m)),
  (asc "GetTrackAll", .u (SensCanLogData.GetTrackAll m)),
  (asc "GetSpeed", .u (SensCanLogData.GetSpeed m)),
  (asc "GetPressureAxis_1", .u (SensCanLogData.GetPressureAxis_1 m)),
  (asc "GetPressureAxis_2", .u (SensCanLogData.GetPressureAxis_2 m)),
  (asc "GetPressureAxis_3", .u (SensCanLogData.GetPressureAxis_3 m)),
  (asc "GetPressureAxis_4", .u (SensCanLogData.GetPressureAxis_4 m)),
  (asc "GetPressureAxis_5", .u (SensCanLogData.GetPressureAxis_5 m))]

/-- the getters of `SensCanLogTmpDataExt`, by name (egts_sr_egtsplus_data.go:715-734) -/
def SensCanLogTmpDataExt.getters (m : Option SensCanLogTmpDataExt) : List (Bytes × Val) := [
  (asc "GetSensNum", .u (SensCanLogTmpDataExt.GetSensNum m)),
  (asc "GetFlagsHigh", .u (SensCanLogTmpDataExt.GetFlagsHigh m)),
  (asc "GetFlagsLow", .u (SensCanLogTmpDataExt.GetFlagsLow m))]

/-- the getters of `SensCounterCount`, by name (egts_sr_egtsplus_data.go:748-760) -/
def SensCounterCount.getters (m : Option SensCounterCount) : List (Bytes × Val) := [
  (asc "GetSensNum", .u (SensCounterCount.GetSensNum m)),
  (asc "GetValue", .u (SensCounterCount.GetValue m))]

/-- the getters of `SensCrashData`, by name (egts_sr_egtsplus_data.go:775-794) -/
def SensCrashData.getters (m : Option SensCrashData) : List (Bytes × Val) := [
  (asc "GetSensNum", .u (SensCrashData.GetSensNum m)),
  (asc "GetEnergy", .u (SensCrashData.GetEnergy m)),
  (asc "GetIsOverturned", .b (SensCrashData.GetIsOverturned m))]

/-- the getters of `SensDinsFlags`, by name (egts_sr_egtsplus_data.go:809-828) -/
def SensDinsFlags.getters (m : Option SensDinsFlags) : List (Bytes × Val) := [
  (asc "GetSensNum", .u (SensDinsFlags.GetSensNum m)),
  (asc "GetDevice", .u (SensDinsFlags.GetDevice m)),
  (asc "GetExternal", .u (SensDinsFlags.GetExternal m))]

/-- the getters of `SensDoutsFlags`, by name (egts_sr_egtsplus_data.go:843-862) -/
def SensDoutsFlags.getters (m : Option SensDoutsFlags) : List (Bytes × Val) := [
  (asc "GetSensNum", .u (SensDoutsFlags.GetSensNum m)),
  (asc "GetDevice", .u (SensDoutsFlags.GetDevice m)),
  (asc "GetExternal", .u (SensDoutsFlags.GetExternal m))]

/-- the getters of `SensFmeterFrequency`, by name (egts_sr_egtsplus_data.go:876-888) -/
def SensFmeterFrequency.getters (m : Option SensFmeterFrequency) : List (Bytes × Val) := [
  (asc "GetSensNum", .u (SensFmeterFrequency.GetSensNum m)),
  (asc "GetValue", .u (SensFmeterFrequency.GetValue m))]

/-- the getters of `SensFuelLevel`, by name (egts_sr_egtsplus_data.go:906-946) -/
def SensFuelLevel.getters (m : Option SensFuelLevel) : List (Bytes × Val) := [
  (asc "GetSensNum", .u (SensFuelLevel.GetSensNum m)),
  (asc "GetValue", .u (SensFuelLevel.GetValue m)),
  (asc "GetParrots", .u (SensFuelLevel.GetParrots m)),
  (asc "GetUnit", .u (SensFuelLevel.GetUnit m)),
  (asc "GetT", .u (SensFuelLevel.GetT m)),
  (asc "GetStatus", .u (SensFuelLevel.GetStatus m))]

/-- the getters of `SensGsmCellMonotoringCellMonitoring`, by name (egts_sr_egtsplus_data.go:967-1014) -/
def SensGsmCellMonotoringCellMonitoring.getters (m : Option SensGsmCellMonotoringCellMonitoring) : List (Bytes × Val) := [
  (asc "GetSensNum", .u (SensGsmCellMonotoringCellMonitoring.GetSensNum m)),
  (asc "GetLac", .s ((SensGsmCellMonotoringCellMonitoring.GetLac m).getD [])),
  (asc "GetCid", .s ((SensGsmCellMonotoringCellMonitoring.GetCid m).getD [])),
  (asc "GetRssi", .s ((SensGsmCellMonotoringCellMonitoring.GetRssi m).getD [])),
  (asc "GetTimeAdv", .s ((SensGsmCellMonotoringCellMonitoring.GetTimeAdv m).getD [])),
  (asc "GetMcc", .u (SensGsmCellMonotoringCellMonitoring.GetMcc m)),
  (asc "GetMnc", .u (SensGsmCellMonotoringCellMonitoring.GetMnc m))]

/-- the getters of `SensNdNavData`, by name (egts_sr_egtsplus_data.go:1036-1104) -/
def SensNdNavData.getters (m : Option SensNdNavData) : List (Bytes × Val) := [
  (asc "GetSensNum", .u (SensNdNavData.GetSensNum m)),
  (asc "GetLongitude", .i (SensNdNavData.GetLongitude m)),
  (asc "GetLatitude", .i (SensNdNavData.GetLatitude m)),
  (asc "GetAltitude", .u (SensNdNavData.GetAltitude m)),
  (asc "GetSpeed", .u (SensNdNavData.GetSpeed m)),
  (asc "GetCourse", .u (SensNdNavData.GetCourse m)),
  (asc "GetSatCount", .u (SensNdNavData.GetSatCount m)),
  (asc "GetPdop", .u (SensNdNavData.GetPdop m)),
  (asc "GetTrack", .u (SensNdNavData.GetTrack m)),
  (asc "GetOdometer", .u (SensNdNavData.GetOdometer m))]

/-- the getters of `SensStorInfo`, by name (egts_sr_egtsplus_data.go:1123-1170) -/
def SensStorInfo.getters (m : Option SensStorInfo) : List (Bytes × Val) := [
  (asc "GetSensNum", .u (SensStorInfo.GetSensNum m)),
  (asc "GetIdMax", .u (SensStorInfo.GetIdMax m)),
  (asc "GetIdMin", .u (SensStorInfo.GetIdMin m)),
  (asc "GetTmOldest", .u (SensStorInfo.GetTmOldest m)),
  (asc "GetTmOldestUnack", .u (SensStorInfo.GetTmOldestUnack m)),
  (asc "GetCntUnack", .u (SensStorInfo.GetCntUnack m)),
  (asc "GetCntUnackLosted", .u (SensStorInfo.GetCntUnackLosted m))]

/-- the getters of `SensTermoData`, by name (egts_sr_egtsplus_data.go:1185-1204) -/
def SensTermoData.getters (m : Option SensTermoData) : List (Bytes × Val) := [
  (asc "GetSensNum", .u (SensTermoData.GetSensNum m)),
  (asc "GetStatus", .u (SensTermoData.GetStatus m)),
  (asc "GetTemperature", .i (SensTermoData.GetTemperature m))]

/-- the getters of `SensTestEraTests`, by name (egts_sr_egtsplus_data.go:1227-1302) -/
def SensTestEraTests.getters (m : Option SensTestEraTests) : List (Bytes × Val) := [
  (asc "GetSensNum", .u (SensTestEraTests.GetSensNum m)),
  (asc "GetMicConFailure", .b (SensTestEraTests.GetMicConFailure m)),
  (asc "GetMicFailure", .b (SensTestEraTests.GetMicFailure m)),
  (asc "GetIgnitionFailure", .b (SensTestEraTests.GetIgnitionFailure m)),
  (asc "GetUimFailure", .b (SensTestEraTests.GetUimFailure m)),
  (asc "GetBatFailure", .b (SensTestEraTests.GetBatFailure m)),
  (asc "GetBatVoltLow", .b (SensTestEraTests.GetBatVoltLow m)),
  (asc "GetCrashSensFailure", .b (SensTestEraTests.GetCrashSensFailure m)),
  (asc "GetRaimProblem", .b (SensTestEraTests.GetRaimProblem m)),
  (asc "GetGnssAntennaFailure", .b (SensTestEraTests.GetGnssAntennaFailure m)),
  (asc "GetEventsMemoryOverflow", .b (SensTestEraTests.GetEventsMemoryOverflow m))]

/-- the getters of `SensTrackerInfo`, by name (egts_sr_egtsplus_data.go:1319-1352) -/
def SensTrackerInfo.getters (m : Option SensTrackerInfo) : List (Bytes × Val) := [
  (asc "GetSensNum", .u (SensTrackerInfo.GetSensNum m)),
  (asc "GetCntAck", .u (SensTrackerInfo.GetCntAck m)),
  (asc "GetCntAckRealtime", .u (SensTrackerInfo.GetCntAckRealtime m)),
  (asc "GetCntNoack", .u (SensTrackerInfo.GetCntNoack m)),
  (asc "GetCntConnect", .u (SensTrackerInfo.GetCntConnect m))]

/-- the getters of `StorageRecord`, by name (egts_sr_egtsplus_data.go:266-418) -/
def StorageRecord.getters (m : Option StorageRecord) : List (Bytes × Told) := [
  (asc "GetRecordNumber", .val (.u (StorageRecord.GetRecordNumber m))),
  (asc "GetTimeStamp", .val (.u (StorageRecord.GetTimeStamp m))),
  (asc "GetRecordReason", .enums (StorageRecord.GetRecordReason m)),
  (asc "GetStatusFlags", .val (.u (StorageRecord.GetStatusFlags m))),
  (asc "GetSensAccelerometerData", .msgs ((StorageRecord.GetSensAccelerometerData m).map fun x => Egts.SensAccelerometerData.getters (some x))),
  (asc "GetSensAinAinValue", .msgs ((StorageRecord.GetSensAinAinValue m).map fun x => Egts.SensAinAinValue.getters (some x))),
  (asc "GetSensBufferData", .msgs ((StorageRecord.GetSensBufferData m).map fun x => Egts.SensBufferData.getters (some x))),
  (asc "GetSensButtonPressCounter", .msgs ((StorageRecord.GetSensButtonPressCounter m).map fun x => Egts.SensButtonPressCounter.getters (some x))),
  (asc "GetSensCanLogData", .msgs ((StorageRecord.GetSensCanLogData m).map fun x => Egts.SensCanLogData.getters (some x))),
  (asc "GetSensCanLogTmpDataExt", .msgs ((StorageRecord.GetSensCanLogTmpDataExt m).map fun x => Egts.SensCanLogTmpDataExt.getters (some x))),
  (asc "GetSensCounterCount", .msgs ((StorageRecord.GetSensCounterCount m).map fun x => Egts.SensCounterCount.getters (some x))),
  (asc "GetSensCrashData", .msgs ((StorageRecord.GetSensCrashData m).map fun x => Egts.SensCrashData.getters (some x))),
  (asc "GetSensDinsFlags", .msgs ((StorageRecord.GetSensDinsFlags m).map fun x => Egts.SensDinsFlags.getters (some x))),
  (asc "GetSensDoutsFlags", .msgs ((StorageRecord.GetSensDoutsFlags m).map fun x => Egts.SensDoutsFlags.getters (some x))),
  (asc "GetSensFmeterFrequency", .msgs ((StorageRecord.GetSensFmeterFrequency m).map fun x => Egts.SensFmeterFrequency.getters (some x))),
  (asc "GetSensFuelLevel", .msgs ((StorageRecord.GetSensFuelLevel m).map fun x => Egts.SensFuelLevel.getters (some x))),
  (asc "GetSensGsmCellMonotoringCellMonitoring", .msgs ((StorageRecord.GetSensGsmCellMonotoringCellMonitoring m).map fun x => Egts.SensGsmCellMonotoringCellMonitoring.getters (some x))),
  (asc "GetSensNdNavData", .msgs ((StorageRecord.GetSensNdNavData m).map fun x => Egts.SensNdNavData.getters (some x))),
  (asc "GetSensStorInfo", .msgs ((StorageRecord.GetSensStorInfo m).map fun x => Egts.SensStorInfo.getters (some x))),
  (asc "GetSensTermoData", .msgs ((StorageRecord.GetSensTermoData m).map fun x => Egts.SensTermoData.getters (some x))),
  (asc "GetSensTestEraTests", .msgs ((StorageRecord.GetSensTestEraTests m).map fun x => Egts.SensTestEraTests.getters (some x))),
  (asc "GetSensTrackerInfo", .msgs ((StorageRecord.GetSensTrackerInfo m).map fun x => Egts.SensTrackerInfo.getters (some x)))]

end Egts
