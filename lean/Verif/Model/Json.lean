import Verif.Model.Server
import Verif.Model.Storage
set_option autoImplicit false
/- Model of the JSON document of a record: `(*NavRecord).ToBytes`, cli/receiver/storage/packet.go:20-22, and
`json.MarshalIndent`, default.go:15. The document is modelled here as a tree; its text is in Model/JsonText and
Model/JsonIndent. Strings of the tree are what a JSON parser reads back: `encoding/json` replaces every byte that is not part of valid
UTF-8 by U+FFFD (package encoding/json, Marshal: "String values encode as JSON strings coerced to valid UTF-8, replacing
invalid bytes with the Unicode replacement rune"). -/
namespace Egts

/-- JSON documents (Go library, as called by cli/receiver/storage/packet.go:20-22) -/
inductive Json where
  | null
  | bool (b : Bool)
  | num (q : Rat)
  | str (s : Bytes)
  | arr (l : List Json)
  | obj (m : List (Bytes × Json))

/-- length of the encoded code point (of two bytes or more) at the start of `s`, 0 if there is none: `utf8.DecodeRuneInString`
(Go standard library: tables `first` and `acceptRanges`). -/
def runeLen (s : Bytes) : Nat :=
  let cont (b : UInt8) : Bool := 0x80 ≤ b.toNat && b.toNat ≤ 0xBF
  match s with
  | a :: b :: r =>
    if 0xC2 ≤ a.toNat ∧ a.toNat ≤ 0xDF then if cont b then 2 else 0
    else if 0xE0 ≤ a.toNat ∧ a.toNat ≤ 0xEF then
      match r with
      | c :: _ =>
        if (if a.toNat = 0xE0 then 0xA0 else 0x80) ≤ b.toNat ∧ b.toNat ≤ (if a.toNat = 0xED then 0x9F else 0xBF) ∧ cont c then 3 else 0
      | [] => 0
    else if 0xF0 ≤ a.toNat ∧ a.toNat ≤ 0xF4 then
      match r with
      | c :: d :: _ =>
        if (if a.toNat = 0xF0 then 0x90 else 0x80) ≤ b.toNat ∧ b.toNat ≤ (if a.toNat = 0xF4 then 0x8F else 0xBF) ∧ cont c ∧ cont d then 4 else 0
      | _ => 0
    else 0
  | _ => 0

/-- the loop of `encoding/json.appendString`: ASCII and valid code points are kept, every other byte becomes U+FFFD
(EF BF BD) (Go library, as called by cli/receiver/storage/packet.go:20-22) -/
def toUtf8 (s : Bytes) : Bytes :=
  match s with
  | [] => []
  | a :: r =>
    if a.toNat < 0x80 then a :: toUtf8 r
    else if runeLen (a :: r) = 0 then [0xEF, 0xBF, 0xBD] ++ toUtf8 r
    else (a :: r).take (runeLen (a :: r)) ++ toUtf8 ((a :: r).drop (runeLen (a :: r)))
termination_by s.length
decreasing_by
  · simp_wf
  · simp_wf
  · simp_wf; omega

/-- a string of the record (Go library, as called by cli/receiver/storage/packet.go:20-22) -/
def jstr (s : Bytes) : Json := .str (toUtf8 s)

/-- a slice: nil is `null` (the server only appends to nil slices, so that an empty list is a nil slice) (Go library, as called by cli/receiver/storage/packet.go:20-22) -/
def jslice {α : Type} (f : α → Json) (l : List α) : Json := if l.isEmpty then .null else .arr (l.map f)

/-- `AnSensor`, packet.go:40-43. -/
def AnSensor.json (a : AnSensor) : Json := .obj [(asc "sensor_number", .num a.SensorNumber.toNat), (asc "value", .num a.Value.toNat)]

/-- `LiquidSensor`, packet.go:31-38. -/
def LiquidSensor.json (q : LiquidSensor) : Json := .obj [
  (asc "sensor_number", .num q.SensorNumber.toNat), (asc "module_number", .num q.ModuleNumber.toNat),
  (asc "error_flag", jstr q.ErrorFlag), (asc "value_unit", jstr q.ValueUnit),
  (asc "value_mm", .num q.ValueMm.toNat), (asc "value_l", .num q.ValueL)]

/-- `LocState`, packet.go:24-29. -/
def LocState.json (s : LocState) : Json := .obj [
  (asc "lat", .num s.Latitude), (asc "lng", .num s.Longitude), (asc "speed", .num s.Speed.toNat),
  (asc "navigation_dt", jstr s.NavigationDt)]

/-- `NavRecord`, packet.go:7-18. -/
def NavRecord.json (r : NavRecord) : Json := .obj [
  (asc "server_id", jstr r.ServerID), (asc "IMEI", jstr r.IMEI), (asc "client_id", .num r.ClientID.toNat),
  (asc "received_dt", jstr r.ReceivedDt), (asc "packet_id", .num r.PacketID.toNat),
  (asc "navigation_unix_time", .num r.NavigationTimestamp),
  (asc "an_sensors", jslice AnSensor.json r.AnSensors), (asc "liquid_sensors", jslice LiquidSensor.json r.LiquidSensors),
  (asc "loc_states", jslice LocState.json r.LocStates), (asc "loc_states_count", .num r.LocStatesCount.toInt)]

end Egts
