import Verif.Model.JsonText
set_option autoImplicit false
/- Model of the reasons of telematic messages, libs/egts/egts_sr_egtsplus_data.go:48-191. The tables were written by tools/genreasons.py from the Go source.
`proto.EnumName` and `proto.UnmarshalJSONEnum` (golang/protobuf 1.5.2, proto/registry.go and proto/defaults.go) are modelled; `json.Unmarshal` into a string and into an int32 is a parameter. -/
namespace Egts

/-- the constants `StorageRecord_…`, egts_sr_egtsplus_data.go:51-89 -/
def reasonConsts : List (Bytes × Int32) := [
  (asc "DEVICE_RESET", 1), (asc "PROFILE_CHANGE", 2), (asc "IGNITION_ON", 3), (asc "IGNITION_OFF", 4),
  (asc "TRIP_BEGIN", 5), (asc "TRIP_END", 6), (asc "STOP", 7), (asc "MOVE", 8),
  (asc "TOWING_BEGIN", 9), (asc "TOWING_END", 10), (asc "TIMER_MOVE", 11), (asc "TIMER_STOP", 12),
  (asc "ANGLE", 13), (asc "DISTANCE", 14), (asc "SOS_BUTTON", 15), (asc "SERVICE_BUTTON", 16),
  (asc "TAMPER", 17), (asc "ANTENNA_SWITCH", 18), (asc "GSM_LOST", 19), (asc "GSM_RECONNECT", 20),
  (asc "GNSS_LOST", 21), (asc "GNSS_REAQUISITION", 22), (asc "JAMMER_GSM", 23), (asc "JAMMER_GNSS", 24),
  (asc "OVER_SPEED", 25), (asc "OVER_RPM", 26), (asc "OVER_TEMPERATURE", 27), (asc "DANGEROUS_DRIVING", 28),
  (asc "ACCIDENT", 29), (asc "OVERTHROW", 30), (asc "ON_BATTERY", 31), (asc "BATTERY_DISCHARGE", 32),
  (asc "RADIO_TAG_REG", 33), (asc "RADIO_TAG_UNREG", 34), (asc "MOVE_WITHOUT_RADIO_TAG", 35), (asc "ECU_ERROR_CODE", 36),
  (asc "EXTERNAL_REQUEST", 37), (asc "DEVICE_TEST", 38), (asc "OTHER_REASON", 99)]

/-- the map `StorageRecordReason_name`, egts_sr_egtsplus_data.go:93-131 -/
def reasonNames : List (Int32 × Bytes) := [
  (1, asc "DEVICE_RESET"), (2, asc "PROFILE_CHANGE"), (3, asc "IGNITION_ON"), (4, asc "IGNITION_OFF"),
  (5, asc "TRIP_BEGIN"), (6, asc "TRIP_END"), (7, asc "STOP"), (8, asc "MOVE"),
  (9, asc "TOWING_BEGIN"), (10, asc "TOWING_END"), (11, asc "TIMER_MOVE"), (12, asc "TIMER_STOP"),
  (13, asc "ANGLE"), (14, asc "DISTANCE"), (15, asc "SOS_BUTTON"), (16, asc "SERVICE_BUTTON"),
  (17, asc "TAMPER"), (18, asc "ANTENNA_SWITCH"), (19, asc "GSM_LOST"), (20, asc "GSM_RECONNECT"),
  (21, asc "GNSS_LOST"), (22, asc "GNSS_REAQUISITION"), (23, asc "JAMMER_GSM"), (24, asc "JAMMER_GNSS"),
  (25, asc "OVER_SPEED"), (26, asc "OVER_RPM"), (27, asc "OVER_TEMPERATURE"), (28, asc "DANGEROUS_DRIVING"),
  (29, asc "ACCIDENT"), (30, asc "OVERTHROW"), (31, asc "ON_BATTERY"), (32, asc "BATTERY_DISCHARGE"),
  (33, asc "RADIO_TAG_REG"), (34, asc "RADIO_TAG_UNREG"), (35, asc "MOVE_WITHOUT_RADIO_TAG"), (36, asc "ECU_ERROR_CODE"),
  (37, asc "EXTERNAL_REQUEST"), (38, asc "DEVICE_TEST"), (99, asc "OTHER_REASON")]

/-- the map `StorageRecordReason_value`, egts_sr_egtsplus_data.go:134-172 -/
def reasonValues : List (Bytes × Int32) := [
  (asc "DEVICE_RESET", 1), (asc "PROFILE_CHANGE", 2), (asc "IGNITION_ON", 3), (asc "IGNITION_OFF", 4),
  (asc "TRIP_BEGIN", 5), (asc "TRIP_END", 6), (asc "STOP", 7), (asc "MOVE", 8),
  (asc "TOWING_BEGIN", 9), (asc "TOWING_END", 10), (asc "TIMER_MOVE", 11), (asc "TIMER_STOP", 12),
  (asc "ANGLE", 13), (asc "DISTANCE", 14), (asc "SOS_BUTTON", 15), (asc "SERVICE_BUTTON", 16),
  (asc "TAMPER", 17), (asc "ANTENNA_SWITCH", 18), (asc "GSM_LOST", 19), (asc "GSM_RECONNECT", 20),
  (asc "GNSS_LOST", 21), (asc "GNSS_REAQUISITION", 22), (asc "JAMMER_GSM", 23), (asc "JAMMER_GNSS", 24),
  (asc "OVER_SPEED", 25), (asc "OVER_RPM", 26), (asc "OVER_TEMPERATURE", 27), (asc "DANGEROUS_DRIVING", 28),
  (asc "ACCIDENT", 29), (asc "OVERTHROW", 30), (asc "ON_BATTERY", 31), (asc "BATTERY_DISCHARGE", 32),
  (asc "RADIO_TAG_REG", 33), (asc "RADIO_TAG_UNREG", 34), (asc "MOVE_WITHOUT_RADIO_TAG", 35), (asc "ECU_ERROR_CODE", 36),
  (asc "EXTERNAL_REQUEST", 37), (asc "DEVICE_TEST", 38), (asc "OTHER_REASON", 99)]

/-- `StorageRecordReason.String`, egts_sr_egtsplus_data.go:180-182; `proto.EnumName`: the name, or the number if there is none -/
def reasonString (x : Int32) : Bytes :=
  match reasonNames.lookup x with
  | some s => s
  | none => intText x.toInt

/-- `json.Unmarshal` into a string that was empty and into an int32 that was 0 -/
structure JsonReader where
  str : Bytes → Option Bytes
  int32 : Bytes → Option Int32

/-- what `UnmarshalJSON` does: panic, or whether there was an error, and the reason afterwards (egts_sr_egtsplus_data.go:183-190) -/
inductive ReasonRead where
  | panic
  | failed (x : Int32)
  | ok (x : Int32)
deriving DecidableEq

/-- `StorageRecordReason.UnmarshalJSON`, egts_sr_egtsplus_data.go:183-190, on a reason that was `x`; `proto.UnmarshalJSONEnum` looks at the first byte without looking
whether there is one; the texts of the errors are not modelled -/
def reasonUnmarshal (J : JsonReader) (x : Int32) (data : Bytes) : ReasonRead :=
  match data with
  | [] => .panic
  | c :: _ =>
    if c = 34 then
      match J.str data with
      | none => .failed x
      | some s =>
        match reasonValues.lookup s with
        | none => .failed x
        | some v => .ok v
    else
      match J.int32 data with
      | none => .failed x
      | some v => .ok v

end Egts
