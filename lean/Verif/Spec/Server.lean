import Verif.Model.Server
import Verif.Spec.Frame
set_option autoImplicit false
/- What the server is expected to do with a packet, in terms of the decoded subrecords. Independent of the loops of
the code. -/
namespace Egts
open Frame
variable [P : Platform]

/-- all subrecords of a packet, in order of appearance -/
def subsOf (l : List ServiceDataRecord) : List SubData := l.flatMap fun r => r.RecordDataSet.filterMap (·.SubrecordData)

def SubData.pos? : SubData → Option SrPosData
  | .pos d => some d
  | _ => none

def SubData.term? : SubData → Option SrTermIdentity
  | .term d => some d
  | _ => none

def SubData.liquid? : SubData → Option SrLiquidLevelSensor
  | .liquid d => some d
  | _ => none

def SubData.absCntr? : SubData → Option SrAbsCntrData
  | .absCntr d => some d
  | _ => none

def SubData.isResponse : SubData → Bool
  | .response _ => true
  | _ => false

/-- login or terminal identity: the client expects an authorisation result -/
def SubData.isLogin : SubData → Bool
  | .auth _ => true
  | .term _ => true
  | _ => false

/-- the positions of a packet, in order of appearance -/
def positions (ds : List SubData) : List SrPosData := ds.filterMap (·.pos?)

/-- the counters of a record that hold its number: counter 110 (three low bytes) and 111 (high byte), in order -/
def numberParts (r : ServiceDataRecord) : List (Nat × Nat) :=
  (r.RecordDataSet.filterMap (·.SubrecordData)).filterMap fun d => match d with
    | .absCntr c => if c.CounterNumber = 110 ∨ c.CounterNumber = 111 then some (c.CounterNumber.toNat, c.CounterValue.toNat) else none
    | _ => none

/-- a packet without record responses -/
def NoResponses (l : List ServiceDataRecord) : Prop := ∀ d ∈ subsOf l, d.isResponse = false

/-- the exported form of a position: coordinates, speed and time of the position -/
def locOf (d : SrPosData) : LocState :=
  { Latitude := d.Latitude, Longitude := d.Longitude, Speed := d.Speed, NavigationDt := rfc3339 (unixOf d.NavigationTime) }

/-- the analog readings of a subrecord: sensors 1 to 8 that are marked present, or the one of an absolute analog
subrecord -/
def SubData.readings : SubData → List AnSensor
  | .ad d => [(1, d.ASFE1, d.ANS1), (2, d.ASFE2, d.ANS2), (3, d.ASFE3, d.ANS3), (4, d.ASFE4, d.ANS4), (5, d.ASFE5, d.ANS5),
      (6, d.ASFE6, d.ANS6), (7, d.ASFE7, d.ANS7), (8, d.ASFE8, d.ANS8)].filterMap fun (n, f, v) =>
        if f = [49] then some ⟨n, v⟩ else none
  | .absAn d => [⟨d.SensorNumber, d.Value⟩]
  | _ => []

/-- the exported form of a liquid level: millimetres for the units 00 and 01, tenths of a litre for unit 10 -/
def liquidOf (d : SrLiquidLevelSensor) : LiquidSensor :=
  { SensorNumber := d.LiquidLevelSensorNumber, ModuleNumber := d.ModuleAddress, ErrorFlag := d.LiquidLevelSensorErrorFlag
    ValueUnit := d.LiquidLevelSensorValueUnit
    ValueMm := if d.LiquidLevelSensorValueUnit ∈ [[48, 48], [48, 49]] then d.LiquidLevelSensorData else 0
    ValueL := if d.LiquidLevelSensorValueUnit = [49, 48] then rnd ((d.LiquidLevelSensorData.toNat : Rat) / 10) else 0 }

/-- the records saved by a list of actions -/
def savesOf (l : List Effect) : List NavRecord := l.filterMap fun
  | .save r => some r
  | .write _ => none

/-- the packets sent by a list of actions -/
def writesOf (l : List Effect) : List Bytes := l.filterMap fun
  | .save _ => none
  | .write b => some b

/-- length of the frame announced by a header: HL, plus the body and its two checksum bytes if FDL is not 0 -/
def frameLen (c : Bytes) : Nat := declaredHL c + if declaredFDL c = 0 then 0 else declaredFDL c + 2

/-- one complete EGTS frame: protocol version 1, at least the ten bytes the server looks at, all bytes of the frame
and nothing else; a length that fits 16 bits -/
structure Framed (c : Bytes) : Prop where
  version : byteAt c 0 = 1
  header : 10 ≤ frameLen c
  complete : c.length = frameLen c
  fits : frameLen c < 65536

instance (c : Bytes) : Decidable (Framed c) :=
  decidable_of_iff (byteAt c 0 = 1 ∧ 10 ≤ frameLen c ∧ c.length = frameLen c ∧ frameLen c < 65536)
    ⟨fun ⟨a, b, c, d⟩ => ⟨a, b, c, d⟩, fun ⟨a, b, c, d⟩ => ⟨a, b, c, d⟩⟩

/-- `out` is one RESPONSE packet: a complete frame of at most 24 bytes plus 6 for each confirmation; every EGTS decoder (here Package.Decode, whatever the capacity of the slice) accepts
it and finds the identifier `pid` of the answered packet, the result `code`, and one confirmation with status 0 for
each of the record numbers `rns`, in order (all in one record; no record at all if there is nothing to confirm) -/
def Answers (out : Bytes) (pid : UInt16) (code : UInt8) (rns : List UInt16) : Prop :=
  Framed out ∧ out.length ≤ 24 + 6 * rns.length ∧ ∀ spare, ∃ q r, Package.decode {} out spare = .ret 0 none q ∧ q.PacketType = 0 ∧
    q.ServicesFrameData = some (.response r) ∧ r.ResponsePacketID = pid ∧ r.ProcessingResult = code ∧
    (rns = [] → r.SDR = none) ∧
    (rns ≠ [] → ∃ rec, r.SDR = some [rec] ∧
      rec.RecordDataSet = rns.map fun rn => ⟨0, 3, some (.response { ConfirmedRecordNumber := rn, RecordStatus := 0 })⟩)

/-- the environment seen from packet number `k` on -/
def Env.after (env : Env) (k : Nat) : Env := ⟨fun i => env.now (k + i), fun i => env.spare (k + i)⟩

end Egts
