import Mathlib.Data.List.Forall2
import Verif.Spec.PackageJson
import Verif.Spec.ProtoWire
import Verif.Model.StorageRecord
set_option autoImplicit false
/- The JSON document of a telematic message, as docs/egts_sr_egtsplus_data.proto names its fields. The tables were written by a script
(tools/genstoragejson.py) from the .proto file alone; the model is written from the tags of the Go code. -/
namespace Egts
open PB (Ty Val)

/-- a field of a message -/
structure ProtoField where
  name : Bytes
  num : Nat
  ty : Ty

/-- a message: its fields, in the order of the .proto file; the value of the field with a number; the fields that are not known -/
structure MsgSpec (T : Type) where
  fields : List ProtoField
  value : T → Nat → Option Val
  unknown : T → Bytes

/-- the value of a field in JSON: numbers, byte strings in base64 (nothing for an empty one) -/
def fieldDoc (D : DocFmt) : Ty → Val → Option Json
  | .float, .u n => some (.num (D.num32 n))
  | _, .u n => some (.num n.toNat)
  | _, .i n => some (.num n.toInt)
  | _, .b x => some (.bool x)
  | _, .s x => if x = [] then none else some (.str (D.bin x))

/-- members that are there -/
def memberDoc (l : List (Bytes × Option Json)) : Json := .obj (l.filterMap fun kv => kv.2.map fun v => (kv.1, v))

/-- the document of a message: the fields that are there, under their names -/
def MsgSpec.doc {T : Type} (S : MsgSpec T) (D : DocFmt) (m : T) : Json :=
  memberDoc (S.fields.map fun f => (f.name, (S.value m f.num).bind (fieldDoc D f.ty)))

/-- the same message on the wire: the fields that are there by their numbers, then those that are not known -/
def MsgSpec.wire {T : Type} (S : MsgSpec T) (m : T) : Bytes :=
  ((List.range 25).flatMap fun n => (S.fields.filter (·.num = n)).flatMap fun f => Proto.optional n f.ty (S.value m n)) ++ S.unknown m

/-- what JSON shows of the value of a field: not the difference between an empty byte string and none, and not the sign of zero -/
def fieldShown : Ty → Val → Option Val
  | .float, .u n => some (.u (if n = 0x80000000 then 0 else n))
  | _, .s x => if x = [] then none else some (.s x)
  | _, v => some v

/-- the messages agree in all known fields, up to `fieldShown` -/
def MsgSpec.Same {T : Type} (S : MsgSpec T) (a b : T) : Prop :=
  ∀ f ∈ S.fields, (S.value a f.num).bind (fieldShown f.ty) = (S.value b f.num).bind (fieldShown f.ty)

/-- JSON shows all of the message: no unknown fields, no empty byte strings, no negative zeros -/
def MsgSpec.Plain {T : Type} (S : MsgSpec T) (m : T) : Prop :=
  S.unknown m = [] ∧ ∀ f ∈ S.fields, (S.value m f.num).bind (fieldShown f.ty) = S.value m f.num

/-- a repeated field: nothing if it is empty -/
def repeatedDoc {α : Type} (d : α → Json) (l : List α) : Option Json := if l = [] then none else some (.arr (l.map d))

/-- message sens_accelerometer_data, docs/egts_sr_egtsplus_data.proto:123-133 -/
def SensAccelerometerData.spec : MsgSpec SensAccelerometerData where
  fields := [
    ⟨asc "sens_num", 1, .uint32⟩,
    ⟨asc "buf", 2, .bytes⟩,
    ⟨asc "atm", 3, .uint32⟩,
    ⟨asc "frequency", 4, .uint32⟩,
    ⟨asc "range", 5, .uint32⟩,
    ⟨asc "format", 6, .uint32⟩,
    ⟨asc "zlib", 7, .uint32⟩]
  value m n := match n with
    | 1 => m.SensNum.map .u
    | 2 => m.Buf.map .s
    | 3 => m.Atm.map .u
    | 4 => m.Frequency.map .u
    | 5 => m.Range.map .u
    | 6 => m.Format.map .u
    | 7 => m.Zlib.map .u
    | _ => none
  unknown := (·.XXX_unrecognized)

/-- message sens_ain_ain_value, docs/egts_sr_egtsplus_data.proto:136-141 -/
def SensAinAinValue.spec : MsgSpec SensAinAinValue where
  fields := [
    ⟨asc "sens_num", 1, .uint32⟩,
    ⟨asc "mv", 2, .uint32⟩]
  value m n := match n with
    | 1 => m.SensNum.map .u
    | 2 => m.Mv.map .u
    | _ => none
  unknown := (·.XXX_unrecognized)

/-- message sens_buffer_data, docs/egts_sr_egtsplus_data.proto:144-150 -/
def SensBufferData.spec : MsgSpec SensBufferData where
  fields := [
    ⟨asc "sens_num", 1, .uint32⟩,
    ⟨asc "data", 2, .bytes⟩,
    ⟨asc "is_packed", 3, .bool⟩]
  value m n := match n with
    | 1 => m.SensNum.map .u
    | 2 => m.Data.map .s
    | 3 => m.IsPacked.map .b
    | _ => none
  unknown := (·.XXX_unrecognized)

/-- message sens_button_press_counter, docs/egts_sr_egtsplus_data.proto:153-158 -/
def SensButtonPressCounter.spec : MsgSpec SensButtonPressCounter where
  fields := [
    ⟨asc "sens_num", 1, .uint32⟩,
    ⟨asc "state", 2, .bool⟩]
  value m n := match n with
    | 1 => m.SensNum.map .u
    | 2 => m.State.map .b
    | _ => none
  unknown := (·.XXX_unrecognized)

/-- message sens_can_log_data, docs/egts_sr_egtsplus_data.proto:162-180 -/
def SensCanLogData.spec : MsgSpec SensCanLogData where
  fields := [
    ⟨asc "sens_num", 1, .uint32⟩,
    ⟨asc "flag_security_state", 2, .uint32⟩,
    ⟨asc "flag_alarm", 3, .uint32⟩,
    ⟨asc "engine_time_all", 4, .uint32⟩,
    ⟨asc "engine_turn_speed", 5, .uint32⟩,
    ⟨asc "engine_temperature", 6, .sint32⟩,
    ⟨asc "fuel_consumption_all", 7, .uint32⟩,
    ⟨asc "fuel_level", 8, .uint32⟩,
    ⟨asc "track_all", 9, .uint32⟩,
    ⟨asc "speed", 10, .uint32⟩,
    ⟨asc "pressure_axis_1", 11, .uint32⟩,
    ⟨asc "pressure_axis_2", 12, .uint32⟩,
    ⟨asc "pressure_axis_3", 13, .uint32⟩,
    ⟨asc "pressure_axis_4", 14, .uint32⟩,
    ⟨asc "pressure_axis_5", 15, .uint32⟩]
  value m n := match n with
    | 1 => m.SensNum.map .u
    | 2 => m.FlagSecurityState.map .u
    | 3 => m.FlagAlarm.map .u
    | 4 => m.EngineTimeAll.map .u
    | 5 => m.EngineTurnSpeed.map .u
    | 6 => m.EngineTemperature.map .i
    | 7 => m.FuelConsumptionAll.map .u
    | 8 => m.FuelLevel.map .u
    | 9 => m.TrackAll.map .u
    | 10 => m.Speed.map .u
    | 11 => m.PressureAxis_1.map .u
    | 12 => m.PressureAxis_2.map .u
    | 13 => m.PressureAxis_3.map .u
    | 14 => m.PressureAxis_4.map .u
    | 15 => m.PressureAxis_5.map .u
    | _ => none
  unknown := (·.XXX_unrecognized)

/-- message sens_can_log_tmp_data_ext, docs/egts_sr_egtsplus_data.proto:183-189 -/
def SensCanLogTmpDataExt.spec : MsgSpec SensCanLogTmpDataExt where
  fields := [
    ⟨asc "sens_num", 1, .uint32⟩,
    ⟨asc "flags_high", 2, .uint32⟩,
    ⟨asc "flags_low", 3, .uint32⟩]
  value m n := match n with
    | 1 => m.SensNum.map .u
    | 2 => m.FlagsHigh.map .u
    | 3 => m.FlagsLow.map .u
    | _ => none
  unknown := (·.XXX_unrecognized)

/-- message sens_counter_count, docs/egts_sr_egtsplus_data.proto:192-197 -/
def SensCounterCount.spec : MsgSpec SensCounterCount where
  fields := [
    ⟨asc "sens_num", 1, .uint32⟩,
    ⟨asc "value", 2, .uint32⟩]
  value m n := match n with
    | 1 => m.SensNum.map .u
    | 2 => m.Value.map .u
    | _ => none
  unknown := (·.XXX_unrecognized)

/-- message sens_crash_data, docs/egts_sr_egtsplus_data.proto:200-206 -/
def SensCrashData.spec : MsgSpec SensCrashData where
  fields := [
    ⟨asc "sens_num", 1, .uint32⟩,
    ⟨asc "energy", 2, .uint32⟩,
    ⟨asc "is_overturned", 3, .bool⟩]
  value m n := match n with
    | 1 => m.SensNum.map .u
    | 2 => m.Energy.map .u
    | 3 => m.IsOverturned.map .b
    | _ => none
  unknown := (·.XXX_unrecognized)

/-- message sens_dins_flags, docs/egts_sr_egtsplus_data.proto:209-215 -/
def SensDinsFlags.spec : MsgSpec SensDinsFlags where
  fields := [
    ⟨asc "sens_num", 1, .uint32⟩,
    ⟨asc "device", 2, .uint32⟩,
    ⟨asc "external", 3, .uint32⟩]
  value m n := match n with
    | 1 => m.SensNum.map .u
    | 2 => m.Device.map .u
    | 3 => m.External.map .u
    | _ => none
  unknown := (·.XXX_unrecognized)

/-- message sens_douts_flags, docs/egts_sr_egtsplus_data.proto:218-224 -/
def SensDoutsFlags.spec : MsgSpec SensDoutsFlags where
  fields := [
    ⟨asc "sens_num", 1, .uint32⟩,
    ⟨asc "device", 2, .uint32⟩,
    ⟨asc "external", 3, .uint32⟩]
  value m n := match n with
    | 1 => m.SensNum.map .u
    | 2 => m.Device.map .u
    | 3 => m.External.map .u
    | _ => none
  unknown := (·.XXX_unrecognized)

/-- message sens_fmeter_frequency, docs/egts_sr_egtsplus_data.proto:227-232 -/
def SensFmeterFrequency.spec : MsgSpec SensFmeterFrequency where
  fields := [
    ⟨asc "sens_num", 1, .uint32⟩,
    ⟨asc "value", 2, .uint32⟩]
  value m n := match n with
    | 1 => m.SensNum.map .u
    | 2 => m.Value.map .u
    | _ => none
  unknown := (·.XXX_unrecognized)

/-- message sens_fuel_level, docs/egts_sr_egtsplus_data.proto:235-244 -/
def SensFuelLevel.spec : MsgSpec SensFuelLevel where
  fields := [
    ⟨asc "sens_num", 1, .uint32⟩,
    ⟨asc "value", 2, .float⟩,
    ⟨asc "parrots", 3, .uint32⟩,
    ⟨asc "unit", 4, .uint32⟩,
    ⟨asc "t", 5, .uint32⟩,
    ⟨asc "status", 6, .uint32⟩]
  value m n := match n with
    | 1 => m.SensNum.map .u
    | 2 => m.Value.map .u
    | 3 => m.Parrots.map .u
    | 4 => m.Unit.map .u
    | 5 => m.T.map .u
    | 6 => m.Status.map .u
    | _ => none
  unknown := (·.XXX_unrecognized)

/-- message sens_gsm_cell_monotoring_cell_monitoring, docs/egts_sr_egtsplus_data.proto:247-257 -/
def SensGsmCellMonotoringCellMonitoring.spec : MsgSpec SensGsmCellMonotoringCellMonitoring where
  fields := [
    ⟨asc "sens_num", 1, .uint32⟩,
    ⟨asc "lac", 4, .bytes⟩,
    ⟨asc "cid", 5, .bytes⟩,
    ⟨asc "rssi", 6, .bytes⟩,
    ⟨asc "time_adv", 7, .bytes⟩,
    ⟨asc "mcc", 2, .uint32⟩,
    ⟨asc "mnc", 3, .uint32⟩]
  value m n := match n with
    | 1 => m.SensNum.map .u
    | 4 => m.Lac.map .s
    | 5 => m.Cid.map .s
    | 6 => m.Rssi.map .s
    | 7 => m.TimeAdv.map .s
    | 2 => m.Mcc.map .u
    | 3 => m.Mnc.map .u
    | _ => none
  unknown := (·.XXX_unrecognized)

/-- message sens_nd_nav_data, docs/egts_sr_egtsplus_data.proto:260-273 -/
def SensNdNavData.spec : MsgSpec SensNdNavData where
  fields := [
    ⟨asc "sens_num", 1, .uint32⟩,
    ⟨asc "longitude", 2, .sfixed32⟩,
    ⟨asc "latitude", 3, .sfixed32⟩,
    ⟨asc "altitude", 4, .uint32⟩,
    ⟨asc "speed", 5, .uint32⟩,
    ⟨asc "course", 6, .uint32⟩,
    ⟨asc "sat_count", 7, .uint32⟩,
    ⟨asc "pdop", 8, .uint32⟩,
    ⟨asc "track", 9, .uint32⟩,
    ⟨asc "odometer", 10, .uint32⟩]
  value m n := match n with
    | 1 => m.SensNum.map .u
    | 2 => m.Longitude.map .i
    | 3 => m.Latitude.map .i
    | 4 => m.Altitude.map .u
    | 5 => m.Speed.map .u
    | 6 => m.Course.map .u
    | 7 => m.SatCount.map .u
    | 8 => m.Pdop.map .u
    | 9 => m.Track.map .u
    | 10 => m.Odometer.map .u
    | _ => none
  unknown := (·.XXX_unrecognized)

/-- message sens_stor_info, docs/egts_sr_egtsplus_data.proto:276-286 -/
def SensStorInfo.spec : MsgSpec SensStorInfo where
  fields := [
    ⟨asc "sens_num", 1, .uint32⟩,
    ⟨asc "id_max", 2, .uint32⟩,
    ⟨asc "id_min", 3, .uint32⟩,
    ⟨asc "tm_oldest", 4, .uint32⟩,
    ⟨asc "tm_oldest_unack", 5, .uint32⟩,
    ⟨asc "cnt_unack", 6, .uint32⟩,
    ⟨asc "cnt_unack_losted", 7, .uint32⟩]
  value m n := match n with
    | 1 => m.SensNum.map .u
    | 2 => m.IdMax.map .u
    | 3 => m.IdMin.map .u
    | 4 => m.TmOldest.map .u
    | 5 => m.TmOldestUnack.map .u
    | 6 => m.CntUnack.map .u
    | 7 => m.CntUnackLosted.map .u
    | _ => none
  unknown := (·.XXX_unrecognized)

/-- message sens_termo_data, docs/egts_sr_egtsplus_data.proto:289-295 -/
def SensTermoData.spec : MsgSpec SensTermoData where
  fields := [
    ⟨asc "sens_num", 1, .uint32⟩,
    ⟨asc "status", 2, .uint32⟩,
    ⟨asc "temperature", 3, .sint32⟩]
  value m n := match n with
    | 1 => m.SensNum.map .u
    | 2 => m.Status.map .u
    | 3 => m.Temperature.map .i
    | _ => none
  unknown := (·.XXX_unrecognized)

/-- message sens_test_era_tests, docs/egts_sr_egtsplus_data.proto:298-312 -/
def SensTestEraTests.spec : MsgSpec SensTestEraTests where
  fields := [
    ⟨asc "sens_num", 1, .uint32⟩,
    ⟨asc "mic_con_failure", 2, .bool⟩,
    ⟨asc "mic_failure", 3, .bool⟩,
    ⟨asc "ignition_failure", 4, .bool⟩,
    ⟨asc "uim_failure", 5, .bool⟩,
    ⟨asc "bat_failure", 6, .bool⟩,
    ⟨asc "bat_volt_low", 7, .bool⟩,
    ⟨asc "crash_sens_failure", 8, .bool⟩,
    ⟨asc "raim_problem", 9, .bool⟩,
    ⟨asc "gnss_antenna_failure", 10, .bool⟩,
    ⟨asc "events_memory_overflow", 11, .bool⟩]
  value m n := match n with
    | 1 => m.SensNum.map .u
    | 2 => m.MicConFailure.map .b
    | 3 => m.MicFailure.map .b
    | 4 => m.IgnitionFailure.map .b
    | 5 => m.UimFailure.map .b
    | 6 => m.BatFailure.map .b
    | 7 => m.BatVoltLow.map .b
    | 8 => m.CrashSensFailure.map .b
    | 9 => m.RaimProblem.map .b
    | 10 => m.GnssAntennaFailure.map .b
    | 11 => m.EventsMemoryOverflow.map .b
    | _ => none
  unknown := (·.XXX_unrecognized)

/-- message sens_tracker_info, docs/egts_sr_egtsplus_data.proto:315-323 -/
def SensTrackerInfo.spec : MsgSpec SensTrackerInfo where
  fields := [
    ⟨asc "sens_num", 1, .uint32⟩,
    ⟨asc "cnt_ack", 2, .uint32⟩,
    ⟨asc "cnt_ack_realtime", 3, .uint32⟩,
    ⟨asc "cnt_noack", 4, .uint32⟩,
    ⟨asc "cnt_connect", 5, .uint32⟩]
  value m n := match n with
    | 1 => m.SensNum.map .u
    | 2 => m.CntAck.map .u
    | 3 => m.CntAckRealtime.map .u
    | 4 => m.CntNoack.map .u
    | 5 => m.CntConnect.map .u
    | _ => none
  unknown := (·.XXX_unrecognized)

/-- message storage_record, docs/egts_sr_egtsplus_data.proto:4-120 -/
def StorageRecord.doc (D : DocFmt) (m : StorageRecord) : Json := memberDoc [
  (asc "record_number", (m.RecordNumber.map .u).bind (fieldDoc D .uint32)),
  (asc "time_stamp", (m.TimeStamp.map .u).bind (fieldDoc D .fixed32)),
  (asc "record_reason", repeatedDoc (fun v => .num v.toInt) m.RecordReason),
  (asc "status_flags", (m.StatusFlags.map .u).bind (fieldDoc D .fixed32)),
  (asc "sens_accelerometer_data", repeatedDoc (SensAccelerometerData.spec.doc D) m.SensAccelerometerData),
  (asc "sens_ain_ain_value", repeatedDoc (SensAinAinValue.spec.doc D) m.SensAinAinValue),
  (asc "sens_buffer_data", repeatedDoc (SensBufferData.spec.doc D) m.SensBufferData),
  (asc "sens_button_press_counter", repeatedDoc (SensButtonPressCounter.spec.doc D) m.SensButtonPressCounter),
  (asc "sens_can_log_data", repeatedDoc (SensCanLogData.spec.doc D) m.SensCanLogData),
  (asc "sens_can_log_tmp_data_ext", repeatedDoc (SensCanLogTmpDataExt.spec.doc D) m.SensCanLogTmpDataExt),
  (asc "sens_counter_count", repeatedDoc (SensCounterCount.spec.doc D) m.SensCounterCount),
  (asc "sens_crash_data", repeatedDoc (SensCrashData.spec.doc D) m.SensCrashData),
  (asc "sens_dins_flags", repeatedDoc (SensDinsFlags.spec.doc D) m.SensDinsFlags),
  (asc "sens_douts_flags", repeatedDoc (SensDoutsFlags.spec.doc D) m.SensDoutsFlags),
  (asc "sens_fmeter_frequency", repeatedDoc (SensFmeterFrequency.spec.doc D) m.SensFmeterFrequency),
  (asc "sens_fuel_level", repeatedDoc (SensFuelLevel.spec.doc D) m.SensFuelLevel),
  (asc "sens_gsm_cell_monotoring_cell_monitoring", repeatedDoc (SensGsmCellMonotoringCellMonitoring.spec.doc D) m.SensGsmCellMonotoringCellMonitoring),
  (asc "sens_nd_nav_data", repeatedDoc (SensNdNavData.spec.doc D) m.SensNdNavData),
  (asc "sens_stor_info", repeatedDoc (SensStorInfo.spec.doc D) m.SensStorInfo),
  (asc "sens_termo_data", repeatedDoc (SensTermoData.spec.doc D) m.SensTermoData),
  (asc "sens_test_era_tests", repeatedDoc (SensTestEraTests.spec.doc D) m.SensTestEraTests),
  (asc "sens_tracker_info", repeatedDoc (SensTrackerInfo.spec.doc D) m.SensTrackerInfo)]

/-- the messages agree in all known fields, up to what JSON shows -/
def StorageRecord.Same (a b : StorageRecord) : Prop :=
  a.RecordNumber = b.RecordNumber ∧
  a.TimeStamp = b.TimeStamp ∧
  a.RecordReason = b.RecordReason ∧
  a.StatusFlags = b.StatusFlags ∧
  List.Forall₂ SensAccelerometerData.spec.Same a.SensAccelerometerData b.SensAccelerometerData ∧
  List.Forall₂ SensAinAinValue.spec.Same a.SensAinAinValue b.SensAinAinValue ∧
  List.Forall₂ SensBufferData.spec.Same a.SensBufferData b.SensBufferData ∧
  List.Forall₂ SensButtonPressCounter.spec.Same a.SensButtonPressCounter b.SensButtonPressCounter ∧
  List.Forall₂ SensCanLogData.spec.Same a.SensCanLogData b.SensCanLogData ∧
  List.Forall₂ SensCanLogTmpDataExt.spec.Same a.SensCanLogTmpDataExt b.SensCanLogTmpDataExt ∧
  List.Forall₂ SensCounterCount.spec.Same a.SensCounterCount b.SensCounterCount ∧
  List.Forall₂ SensCrashData.spec.Same a.SensCrashData b.SensCrashData ∧
  List.Forall₂ SensDinsFlags.spec.Same a.SensDinsFlags b.SensDinsFlags ∧
  List.Forall₂ SensDoutsFlags.spec.Same a.SensDoutsFlags b.SensDoutsFlags ∧
  List.Forall₂ SensFmeterFrequency.spec.Same a.SensFmeterFrequency b.SensFmeterFrequency ∧
  List.Forall₂ SensFuelLevel.spec.Same a.SensFuelLevel b.SensFuelLevel ∧
  List.Forall₂ SensGsmCellMonotoringCellMonitoring.spec.Same a.SensGsmCellMonotoringCellMonitoring b.SensGsmCellMonotoringCellMonitoring ∧
  List.Forall₂ SensNdNavData.spec.Same a.SensNdNavData b.SensNdNavData ∧
  List.Forall₂ SensStorInfo.spec.Same a.SensStorInfo b.SensStorInfo ∧
  List.Forall₂ SensTermoData.spec.Same a.SensTermoData b.SensTermoData ∧
  List.Forall₂ SensTestEraTests.spec.Same a.SensTestEraTests b.SensTestEraTests ∧
  List.Forall₂ SensTrackerInfo.spec.Same a.SensTrackerInfo b.SensTrackerInfo

/-- JSON shows all of the message -/
def StorageRecord.Plain (m : StorageRecord) : Prop :=
  m.XXX_unrecognized = [] ∧
  (∀ x ∈ m.SensAccelerometerData, SensAccelerometerData.spec.Plain x) ∧
  (∀ x ∈ m.SensAinAinValue, SensAinAinValue.spec.Plain x) ∧
  (∀ x ∈ m.SensBufferData, SensBufferData.spec.Plain x) ∧
  (∀ x ∈ m.SensButtonPressCounter, SensButtonPressCounter.spec.Plain x) ∧
  (∀ x ∈ m.SensCanLogData, SensCanLogData.spec.Plain x) ∧
  (∀ x ∈ m.SensCanLogTmpDataExt, SensCanLogTmpDataExt.spec.Plain x) ∧
  (∀ x ∈ m.SensCounterCount, SensCounterCount.spec.Plain x) ∧
  (∀ x ∈ m.SensCrashData, SensCrashData.spec.Plain x) ∧
  (∀ x ∈ m.SensDinsFlags, SensDinsFlags.spec.Plain x) ∧
  (∀ x ∈ m.SensDoutsFlags, SensDoutsFlags.spec.Plain x) ∧
  (∀ x ∈ m.SensFmeterFrequency, SensFmeterFrequency.spec.Plain x) ∧
  (∀ x ∈ m.SensFuelLevel, SensFuelLevel.spec.Plain x) ∧
  (∀ x ∈ m.SensGsmCellMonotoringCellMonitoring, SensGsmCellMonotoringCellMonitoring.spec.Plain x) ∧
  (∀ x ∈ m.SensNdNavData, SensNdNavData.spec.Plain x) ∧
  (∀ x ∈ m.SensStorInfo, SensStorInfo.spec.Plain x) ∧
  (∀ x ∈ m.SensTermoData, SensTermoData.spec.Plain x) ∧
  (∀ x ∈ m.SensTestEraTests, SensTestEraTests.spec.Plain x) ∧
  (∀ x ∈ m.SensTrackerInfo, SensTrackerInfo.spec.Plain x)

end Egts
