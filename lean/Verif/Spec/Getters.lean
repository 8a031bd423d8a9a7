import Verif.Model.Getters
import Verif.Spec.StorageJson
import Verif.Spec.StorageOrder
set_option autoImplicit false
/- What the getters of a telematic message have to tell, from docs/egts_sr_egtsplus_data.proto and the protobuf encoding alone. -/
namespace Egts
open PB (Ty Val)

def isLower (c : UInt8) : Bool := 97 ≤ c ∧ c ≤ 122

/-- the name that the generator gives to a field (https://protobuf.dev/reference/go/go-generated): every word begins with a capital letter, and the
underscore before a word is left out -/
def camelFrom : Bool → Bytes → Bytes
  | _, [] => []
  | start, c :: s =>
    if c = 95 ∧ (s.head?.any isLower) = true then camelFrom true s
    else (if start ∧ isLower c then c - 32 else c) :: camelFrom (!isLower c) s

def getterName (field : Bytes) : Bytes := asc "Get" ++ camelFrom true field

example : getterName (asc "pressure_axis_1") = asc "GetPressureAxis_1" := by decide +kernel

/-- the default values of the types -/
def zeroVal : Ty → Val
  | .uint32 => .u 0
  | .fixed32 => .u 0
  | .float => .u 0
  | .sint32 => .i 0
  | .sfixed32 => .i 0
  | .enum => .i 0
  | .bool => .b false
  | .bytes => .s []

/-- a message on the wire: its fields, one after the other, in any order and any number -/
abbrev Sent := List (ProtoField × Val)

def Sent.wire (l : Sent) : Bytes := l.flatMap fun p => Proto.key p.1.num (Proto.wireType p.1.ty) ++ Proto.value p.1.ty p.2

/-- the last value sent for a field -/
def Sent.last (l : Sent) (num : Nat) : Option Val := (l.filterMap fun p => if p.1.num = num then some p.2 else none).getLast?

/-- a message with the fields `fields` has been sent as `l`: what the getters must return -/
def Sent.told (fields : List ProtoField) (l : Sent) : List (Bytes × Val) :=
  fields.map fun f => (getterName f.name, (l.last f.num).getD (zeroVal f.ty))

/-- the fields are those of the message, with values of their types -/
def Sent.Ok (fields : List ProtoField) (l : Sent) : Prop := ∀ p ∈ l, p.1 ∈ fields ∧ p.2.has p.1.ty

/-- the kinds of fields of the outer message -/
inductive TopKind where
  | one (t : Ty)
  | reasons
  | msgs (fields : List ProtoField)

/-- the parts of a message on the wire: a number; a reason; several reasons packed; an inner message; a number in a field that the .proto file does not have -/
inductive Part where
  | one (num : Nat) (t : Ty) (v : Val)
  | reason (x : Int32)
  | packed (l : List Int32)
  | msg (num : Nat) (l : Sent)
  | unknown (num n : Nat)

def Part.wire : Part → Bytes
  | .one num t v => Proto.key num (Proto.wireType t) ++ Proto.value t v
  | .reason x => Proto.key 3 0 ++ Proto.value .enum (.i x)
  | .packed l => nested 3 (l.flatMap fun x => Proto.value .enum (.i x))
  | .msg num l => nested num l.wire
  | .unknown num n => Proto.key num 0 ++ Proto.base128 n

def Part.value (num : Nat) : Part → Option Val
  | .one n _ v => if n = num then some v else none
  | _ => none

def Part.reasons : Part → List Int32
  | .reason x => [x]
  | .packed l => l
  | _ => []

def Part.inner (num : Nat) : Part → Option Sent
  | .msg n l => if n = num then some l else none
  | _ => none

/-- message storage_record, docs/egts_sr_egtsplus_data.proto:4-120: name, number and kind of its fields -/
def storageTable : List (Bytes × Nat × TopKind) := [
  (asc "record_number", 1, .one .uint32),
  (asc "time_stamp", 2, .one .fixed32),
  (asc "record_reason", 3, .reasons),
  (asc "status_flags", 4, .one .fixed32),
  (asc "sens_accelerometer_data", 18, .msgs SensAccelerometerData.spec.fields),
  (asc "sens_ain_ain_value", 9, .msgs SensAinAinValue.spec.fields),
  (asc "sens_buffer_data", 20, .msgs SensBufferData.spec.fields),
  (asc "sens_button_press_counter", 14, .msgs SensButtonPressCounter.spec.fields),
  (asc "sens_can_log_data", 16, .msgs SensCanLogData.spec.fields),
  (asc "sens_can_log_tmp_data_ext", 17, .msgs SensCanLogTmpDataExt.spec.fields),
  (asc "sens_counter_count", 11, .msgs SensCounterCount.spec.fields),
  (asc "sens_crash_data", 24, .msgs SensCrashData.spec.fields),
  (asc "sens_dins_flags", 10, .msgs SensDinsFlags.spec.fields),
  (asc "sens_douts_flags", 19, .msgs SensDoutsFlags.spec.fields),
  (asc "sens_fmeter_frequency", 12, .msgs SensFmeterFrequency.spec.fields),
  (asc "sens_fuel_level", 8, .msgs SensFuelLevel.spec.fields),
  (asc "sens_gsm_cell_monotoring_cell_monitoring", 13, .msgs SensGsmCellMonotoringCellMonitoring.spec.fields),
  (asc "sens_nd_nav_data", 7, .msgs SensNdNavData.spec.fields),
  (asc "sens_stor_info", 21, .msgs SensStorInfo.spec.fields),
  (asc "sens_termo_data", 15, .msgs SensTermoData.spec.fields),
  (asc "sens_test_era_tests", 23, .msgs SensTestEraTests.spec.fields),
  (asc "sens_tracker_info", 22, .msgs SensTrackerInfo.spec.fields)]

/-- the part belongs to the message -/
def Part.Ok : Part → Prop
  | .one num t v => (∃ name, (name, num, TopKind.one t) ∈ storageTable) ∧ v.has t
  | .reason _ => True
  | .packed _ => True
  | .msg num l => ∃ name fields, (name, num, TopKind.msgs fields) ∈ storageTable ∧ l.Ok fields
  | .unknown num n => num < 2 ^ 29 ∧ 0 < num ∧ (∀ e ∈ storageTable, e.2.1 ≠ num) ∧ n < 2 ^ 64

/-- what the getters of a message sent as `l` must tell: of a number the last value, of the reasons and inner messages all, in the order they came -/
def partsTold (l : List Part) : List (Bytes × Told) :=
  storageTable.map fun e => (getterName e.1, match e.2.2 with
    | .one t => .val (((l.filterMap (Part.value e.2.1)).getLast?).getD (zeroVal t))
    | .reasons => .enums (l.flatMap Part.reasons)
    | .msgs fields => .msgs ((l.filterMap (Part.inner e.2.1)).map (Sent.told fields)))

/-- the required fields -/
def requiredSent (l : List Part) : Prop := ∀ num ∈ [1, 2, 4], l.filterMap (Part.value num) ≠ []

end Egts
