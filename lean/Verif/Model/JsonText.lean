import Verif.Model.Json
set_option autoImplicit false
/- Model of the text `json.Marshal` makes of a record: `(*NavRecord).ToBytes`, cli/receiver/storage/packet.go:20-22
(`encoding/json`: structs as objects with the members in the order of the fields and the names of the tags, nil slices as null,
strings by `appendString` with HTML escaping, integers in decimal, floats by `strconv.AppendFloat`). -/
namespace Egts

/-- what is left open: the formatting of float64 values, and whether the version of Go writes backspace and form feed as \b, \f
(since 1.22) or as \u0008, \u000c. -/
structure JsonFmt where
  float : F64 → Bytes
  shortBF : Bool

/-- lower-case hexadecimal digit (Go library, as called by cli/receiver/storage/packet.go:20-22) -/
def hexDigit (n : Nat) : UInt8 := UInt8.ofNat (if n < 10 then 48 + n else 87 + n)

/-- an ASCII character of a string; `htmlSafeSet` of encoding/json (Go library, as called by cli/receiver/storage/packet.go:20-22) -/
def escAscii (bf : Bool) (a : UInt8) : Bytes :=
  if a = 34 ∨ a = 92 then [92, a]
  else if a = 8 ∧ bf then asc "\\b"
  else if a = 12 ∧ bf then asc "\\f"
  else if a = 10 then asc "\\n"
  else if a = 13 then asc "\\r"
  else if a = 9 then asc "\\t"
  else if a.toNat < 32 ∨ a = 60 ∨ a = 62 ∨ a = 38 then asc "\\u00" ++ [hexDigit (a.toNat / 16), hexDigit (a.toNat % 16)]
  else [a]

/-- a character of two or more bytes: U+2028 and U+2029 are escaped -/
def escRune (c : Bytes) : Bytes :=
  if c = [0xE2, 0x80, 0xA8] then asc "\\u2028" else if c = [0xE2, 0x80, 0xA9] then asc "\\u2029" else c

/-- the loop of `appendString`, between the quotation marks (Go library, as called by cli/receiver/storage/packet.go:20-22) -/
def escText (bf : Bool) (s : Bytes) : Bytes :=
  match s with
  | [] => []
  | a :: r =>
    if a.toNat < 0x80 then escAscii bf a ++ escText bf r
    else if runeLen (a :: r) = 0 then asc "\\ufffd" ++ escText bf r
    else escRune ((a :: r).take (runeLen (a :: r))) ++ escText bf ((a :: r).drop (runeLen (a :: r)))
termination_by s.length
decreasing_by
  · simp_wf
  · simp_wf
  · simp_wf; omega

/-- Go library, as called by cli/receiver/storage/packet.go:20-22 -/
def quoteText (F : JsonFmt) (s : Bytes) : Bytes := [34] ++ escText F.shortBF s ++ [34]

/-- decimal digits of a natural number (Go library, as called by cli/receiver/storage/packet.go:20-22) -/
def decText (n : Nat) : Bytes :=
  if n < 10 then [UInt8.ofNat (48 + n)] else decText (n / 10) ++ [UInt8.ofNat (48 + n % 10)]

/-- `strconv.AppendInt` (Go library, as called by cli/receiver/storage/packet.go:20-22) -/
def intText (n : Int) : Bytes := if n < 0 then 45 :: decText n.natAbs else decText n.natAbs

/-- texts separated by commas (Go library, as called by cli/receiver/storage/packet.go:20-22) -/
def commaSep : List Bytes → Bytes
  | [] => []
  | [x] => x
  | x :: l => x ++ [44] ++ commaSep l

/-- an object: members in order (Go library, as called by cli/receiver/storage/packet.go:20-22) -/
def objText (m : List (Bytes × Bytes)) : Bytes :=
  [123] ++ commaSep (m.map fun kv => [34] ++ kv.1 ++ [34, 58] ++ kv.2) ++ [125]

/-- a slice: nil is `null` (the server only appends to nil slices, so that an empty list is a nil slice) (Go library, as called by cli/receiver/storage/packet.go:20-22) -/
def sliceText {α : Type} (f : α → Bytes) (l : List α) : Bytes :=
  if l.isEmpty then asc "null" else [91] ++ commaSep (l.map f) ++ [93]

/-- `AnSensor`, packet.go:40-43. -/
def AnSensor.text (a : AnSensor) : Bytes := objText [(asc "sensor_number", intText a.SensorNumber.toNat), (asc "value", intText a.Value.toNat)]

/-- `LiquidSensor`, packet.go:31-38. -/
def LiquidSensor.text (F : JsonFmt) (q : LiquidSensor) : Bytes := objText [
  (asc "sensor_number", intText q.SensorNumber.toNat), (asc "module_number", intText q.ModuleNumber.toNat),
  (asc "error_flag", quoteText F q.ErrorFlag), (asc "value_unit", quoteText F q.ValueUnit),
  (asc "value_mm", intText q.ValueMm.toNat), (asc "value_l", F.float q.ValueL)]

/-- `LocState`, packet.go:24-29. -/
def LocState.text (F : JsonFmt) (s : LocState) : Bytes := objText [
  (asc "lat", F.float s.Latitude), (asc "lng", F.float s.Longitude), (asc "speed", intText s.Speed.toNat),
  (asc "navigation_dt", quoteText F s.NavigationDt)]

/-- `NavRecord`, packet.go:7-18, 20-22. -/
def NavRecord.text (F : JsonFmt) (r : NavRecord) : Bytes := objText [
  (asc "server_id", quoteText F r.ServerID), (asc "IMEI", quoteText F r.IMEI), (asc "client_id", intText r.ClientID.toNat),
  (asc "received_dt", quoteText F r.ReceivedDt), (asc "packet_id", intText r.PacketID.toNat),
  (asc "navigation_unix_time", intText r.NavigationTimestamp),
  (asc "an_sensors", sliceText AnSensor.text r.AnSensors), (asc "liquid_sensors", sliceText (LiquidSensor.text F) r.LiquidSensors),
  (asc "loc_states", sliceText (LocState.text F) r.LocStates), (asc "loc_states_count", intText r.LocStatesCount.toInt)]

end Egts
