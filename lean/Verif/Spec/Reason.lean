import Verif.Model.Reason
import Verif.Spec.JsonParse
set_option autoImplicit false
/- The reasons of telematic messages as docs/egts_sr_egtsplus_data.proto has them, and what `json.Unmarshal` is expected to do. -/
namespace Egts

/-- enum reason, docs/egts_sr_egtsplus_data.proto:8-46 (written by tools/genreasons.py from that file) -/
def protoReasons : List (Bytes × Int32) := [
  (asc "DEVICE_RESET", 1), (asc "PROFILE_CHANGE", 2), (asc "IGNITION_ON", 3), (asc "IGNITION_OFF", 4),
  (asc "TRIP_BEGIN", 5), (asc "TRIP_END", 6), (asc "STOP", 7), (asc "MOVE", 8),
  (asc "TOWING_BEGIN", 9), (asc "TOWING_END", 10), (asc "TIMER_MOVE", 11), (asc "TIMER_STOP", 12),
  (asc "ANGLE", 13), (asc "DISTANCE", 14), (asc "SOS_BUTTON", 15), (asc "SERVICE_BUTTON", 16),
  (asc "TAMPER", 17), (asc "ANTENNA_SWITCH", 18), (asc "GSM_LOST", 19), (asc "GSM_RECONNECT", 20),
  (asc "GNSS_LOST", 21), (asc "GNSS_REAQUISITION", 22), (asc "JAMMER_GSM", 23), (asc "JAMMER_GNSS", 24),
  (asc "OVER_SPEED", 25), (asc "OVER_RPM", 26), (asc "OVER_TEMPERATURE", 27), (asc "DANGEROUS_DRIVING", 28),
  (asc "ACCIDENT", 29), (asc "OVERTHROW", 30), (asc "ON_BATTERY", 31), (asc "BATTERY_DISCHARGE", 32),
  (asc "RADIO_TAG_REG", 33), (asc "RADIO_TAG_UNREG", 34), (asc "MOVE_WITHOUT_RADIO_TAG", 35), (asc "ECU_ERROR_CODE", 36),
  (asc "EXTERNAL_REQUEST", 37), (asc "DEVICE_TEST", 38), (asc "OTHER_REASON", 99)]

/-- `json.Unmarshal` reads JSON (RFC 8259): a string variable takes a string (this is only said of texts in ASCII); an int32 takes an integer in its range, written without fraction and exponent, stays as it is (0) on null, and
refuses strings, truth values, arrays, objects and other numbers -/
structure JsonReader.Reads (J : JsonReader) : Prop where
  str : ∀ b s, (∀ c ∈ b, c.toNat < 128) → JsonP.parse b = some (.str s) → J.str b = some s
  int32 : ∀ n : Int32, J.int32 (intText n.toInt) = some n
  null : J.int32 (asc "null") = some 0
  other : ∀ b j, JsonP.parse b = some j → J.int32 b = none ∨ (∃ n : Int32, j = .num n.toInt ∧ J.int32 b = some n) ∨ (j = .null ∧ J.int32 b = some 0)

end Egts
