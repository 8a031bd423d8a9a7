import Verif.Spec.Package
import Verif.Spec.Server
set_option autoImplicit false
/- What the storages are expected to get for a package built with the library and sent to the server. -/
namespace Egts
variable [P : Platform]

/-- the exported form of a position, coordinates up to the resolution of the wire format -/
def Located (d : SrPosData) (s : LocState) : Prop :=
  |s.Latitude - d.Latitude| ≤ 90 / fullScale + 90 / 2 ^ 51 ∧ |s.Longitude - d.Longitude| ≤ 180 / fullScale + 180 / 2 ^ 51 ∧
  s.Speed = d.Speed ∧ s.NavigationDt = rfc3339 (unixOf d.NavigationTime)

/-- `r` reports the records `l` of packet `pid`, received at `now`: all positions, all sensor readings, the object identifier of the last record,
the IMEI of the last terminal identity, the time of the last position, and the packet identifier unless the records carry a number of their own -/
structure Reports (now : Bytes) (pid : UInt16) (l : List ServiceDataRecord) (r : NavRecord) : Prop where
  server : r.ServerID = [69, 71, 84, 83, 95, 71, 65, 84, 69, 48]
  received : r.ReceivedDt = now
  locations : List.Forall₂ Located (positions (subsOf l)) r.LocStates
  count : r.LocStatesCount.toInt = ((positions (subsOf l)).length : Int)
  analog : r.AnSensors = (subsOf l).flatMap (·.readings)
  liquid : r.LiquidSensors = ((subsOf l).filterMap (·.liquid?)).map liquidOf
  client : ∃ rec, l.getLast? = some rec ∧ r.ClientID = if rec.ObjectIDFieldExists = [49] then rec.ObjectIdentifier else 0
  time : ∃ pos, (positions (subsOf l)).getLast? = some pos ∧ r.NavigationTimestamp = unixOf pos.NavigationTime
  imei : ∀ t, ((subsOf l).filterMap (·.term?)).getLast? = some t → r.IMEI = t.IMEI
  noImei : (subsOf l).filterMap (·.term?) = [] → r.IMEI = []
  number : (∀ rec ∈ l, numberParts rec = []) → r.PacketID.toNat = pid.toNat

end Egts
