import Mathlib.Data.List.Forall2
import Verif.Spec.StorageJson
set_option autoImplicit false
/- Which bytes are a telematic message, and which one: the protobuf encoding (https://protobuf.dev/programming-guides/encoding) as a grammar, with all the liberties
that a reader has to grant: numbers in more bytes than needed, fields in any order and repeated, fields that the .proto file does not have (groups among them), known
numbers with another wire type. Shares with the model of the library (Go/Protobuf) only the names of the types and the type of values. -/
namespace Egts.Grammar
open PB (Ty Val)

/-- digits to the base 128, least significant first; all but the last have the top bit set -/
inductive Digits : Bytes → Nat → Prop
  | last (c : UInt8) (h : c.toNat < 128) : Digits [c] c.toNat
  | more (c : UInt8) (x : Bytes) (n : Nat) (h : 128 ≤ c.toNat) (hx : Digits x n) : Digits (c :: x) (c.toNat - 128 + 128 * n)

/-- a varint: at most ten bytes and 64 bits; leading zeros are allowed -/
def Varint (x : Bytes) (n : Nat) : Prop := Digits x n ∧ x.length ≤ 10 ∧ n < 2 ^ 64

/-- the tag in front of a field: its number and its wire type -/
def Tag (x : Bytes) (num wt : Nat) : Prop := Varint x (8 * num + wt) ∧ wt < 8 ∧ 0 < num ∧ num < 2 ^ 29

/-- the tag of a field inside an unknown group: the numbers up to 2^31 that message sets use are let through -/
def GroupTag (x : Bytes) (num wt : Nat) : Prop := Varint x (8 * num + wt) ∧ wt < 8 ∧ 0 < num ∧ num < 2 ^ 31

/-- the content of a field -/
inductive Raw where
  | varint (n : Nat)
  | fixed64
  | bytes (b : Bytes)
  | group
  | fixed32 (n : Nat)

/-- wire types 0, 1, 2 and 5 -/
inductive Plain : Nat → Bytes → Raw → Prop
  | varint (x : Bytes) (n : Nat) (h : Varint x n) : Plain 0 x (.varint n)
  | fixed64 (x : Bytes) (h : x.length = 8) : Plain 1 x .fixed64
  | bytes (l b : Bytes) (h : Varint l b.length) : Plain 2 (l ++ b) (.bytes b)
  | fixed32 (a b c d : UInt8) : Plain 5 [a, b, c, d] (.fixed32 (a.toNat + 256 * b.toNat + 256 ^ 2 * c.toNat + 256 ^ 3 * d.toNat))

/-- what comes after the tag (wire type 3) that begins a group: fields up to the tag (wire type 4) with the same number that ends it -/
inductive GroupText : Nat → Bytes → Prop
  | stop (num : Nat) (t : Bytes) (h : GroupTag t num 4) : GroupText num t
  | plain (num n wt : Nat) (t x rest : Bytes) (r : Raw) (ht : GroupTag t n wt) (hx : Plain wt x r) (hr : GroupText num rest) : GroupText num (t ++ (x ++ rest))
  | group (num n : Nat) (t x rest : Bytes) (ht : GroupTag t n 3) (hx : GroupText n x) (hr : GroupText num rest) : GroupText num (t ++ (x ++ rest))

/-- a field: number, wire type, its text after the tag, its content -/
structure Item where
  num : Nat
  wt : Nat
  text : Bytes
  raw : Raw

def Item.Ok (i : Item) : Prop := Plain i.wt i.text i.raw ∨ (i.wt = 3 ∧ i.raw = .group ∧ GroupText i.num i.text)

/-- a message: fields, one after the other -/
inductive Message : Bytes → List Item → Prop
  | nil : Message [] []
  | cons (t rest : Bytes) (i : Item) (l : List Item) (ht : Tag t i.num i.wt) (hi : i.Ok) (hr : Message rest l) : Message (t ++ (i.text ++ rest)) (i :: l)

/-- the value that the content of a field has in a field of a type; of numbers the low 32 bits count -/
def scalar : Ty → Raw → Option Val
  | .uint32, .varint n => some (.u (UInt32.ofNat (n % 2 ^ 32)))
  | .sint32, .varint n => some (.i (Int32.ofInt (if n % 2 = 0 then ((n % 2 ^ 32) / 2 : Nat) else -((n % 2 ^ 32 + 1) / 2 : Nat))))
  | .bool, .varint n => some (.b (n ≠ 0))
  | .enum, .varint n => some (.i (Int32.ofInt n))
  | .fixed32, .fixed32 n => some (.u (UInt32.ofNat n))
  | .sfixed32, .fixed32 n => some (.i (Int32.ofInt n))
  | .float, .fixed32 n => some (.u (UInt32.ofNat n))
  | .bytes, .bytes b => some (.s b)
  | _, _ => none

/-- its value as the field `num` of type `t`: none if it is another field or has another wire type -/
def Item.value (num : Nat) (t : Ty) (i : Item) : Option Val := if i.num = num then scalar t i.raw else none

/-- of a field that is there several times the last value counts -/
def lastValue (num : Nat) (t : Ty) (l : List Item) : Option Val := (l.filterMap (Item.value num t)).getLast?

/-- how a field that is not understood is kept: its tag written anew -/
def Item.kept (i : Item) : Bytes := Proto.key i.num i.wt ++ i.text

/-- the bytes `b` are a message of the kind `S`, and `m` is this message -/
def SubText {T : Type} (S : MsgSpec T) (b : Bytes) (m : T) : Prop :=
  ∃ l, Message b l ∧ (∀ f ∈ S.fields, S.value m f.num = lastValue f.num f.ty l) ∧
    S.unknown m = (l.filter fun i => S.fields.all fun f => (i.value f.num f.ty).isNone).flatMap Item.kept

/-- reasons one after the other, in one field -/
inductive Packed : Bytes → List Int32 → Prop
  | nil : Packed [] []
  | cons (x rest : Bytes) (n : Nat) (l : List Int32) (hx : Varint x n) (hr : Packed rest l) : Packed (x ++ rest) (Int32.ofInt n :: l)

/-- a field with reasons: one, or several -/
inductive ReasonText : Raw → List Int32 → Prop
  | one (n : Nat) : ReasonText (.varint n) [Int32.ofInt n]
  | packed (b : Bytes) (l : List Int32) (h : Packed b l) : ReasonText (.bytes b) l

/-- content that is a number or bytes -/
def Item.reason (i : Item) : Option Raw :=
  if i.num = 3 then match i.raw with
    | .varint n => some (.varint n)
    | .bytes b => some (.bytes b)
    | _ => none
  else none

/-- the content of a field with an inner message -/
def Item.inner (num : Nat) (i : Item) : Option Bytes :=
  if i.num = num then match i.raw with
    | .bytes b => some b
    | _ => none
  else none

/-- the inner messages with number `num` are `ms`, in order -/
def Inner {T : Type} (S : MsgSpec T) (num : Nat) (l : List Item) (ms : List T) : Prop := List.Forall₂ (SubText S) (l.filterMap (Item.inner num)) ms

/-- the field is none of the message storage_record, or has the wrong wire type -/
def Item.unknownTop (i : Item) : Bool :=
  (i.value 1 .uint32).isNone && (i.value 2 .fixed32).isNone && i.reason.isNone && (i.value 4 .fixed32).isNone &&
    (List.range 25).all fun n => n < 7 || (i.inner n).isNone

/-- the bytes `b` are a message storage_record (docs/egts_sr_egtsplus_data.proto:4-120), but perhaps without required fields, and `m` is this message -/
def StorageText (b : Bytes) (m : StorageRecord) : Prop :=
  ∃ l, Message b l ∧
    m.RecordNumber.map .u = lastValue 1 .uint32 l ∧ m.TimeStamp.map .u = lastValue 2 .fixed32 l ∧ m.StatusFlags.map .u = lastValue 4 .fixed32 l ∧
    (∃ rs, List.Forall₂ ReasonText (l.filterMap Item.reason) rs ∧ m.RecordReason = rs.flatten) ∧
    Inner SensNdNavData.spec 7 l m.SensNdNavData ∧ Inner SensFuelLevel.spec 8 l m.SensFuelLevel ∧ Inner SensAinAinValue.spec 9 l m.SensAinAinValue ∧
    Inner SensDinsFlags.spec 10 l m.SensDinsFlags ∧ Inner SensCounterCount.spec 11 l m.SensCounterCount ∧
    Inner SensFmeterFrequency.spec 12 l m.SensFmeterFrequency ∧
    Inner SensGsmCellMonotoringCellMonitoring.spec 13 l m.SensGsmCellMonotoringCellMonitoring ∧
    Inner SensButtonPressCounter.spec 14 l m.SensButtonPressCounter ∧ Inner SensTermoData.spec 15 l m.SensTermoData ∧
    Inner SensCanLogData.spec 16 l m.SensCanLogData ∧ Inner SensCanLogTmpDataExt.spec 17 l m.SensCanLogTmpDataExt ∧
    Inner SensAccelerometerData.spec 18 l m.SensAccelerometerData ∧ Inner SensDoutsFlags.spec 19 l m.SensDoutsFlags ∧
    Inner SensBufferData.spec 20 l m.SensBufferData ∧ Inner SensStorInfo.spec 21 l m.SensStorInfo ∧
    Inner SensTrackerInfo.spec 22 l m.SensTrackerInfo ∧ Inner SensTestEraTests.spec 23 l m.SensTestEraTests ∧
    Inner SensCrashData.spec 24 l m.SensCrashData ∧
    m.XXX_unrecognized = (l.filter Item.unknownTop).flatMap Item.kept

/-- the required fields are there -/
def HasRequired (m : StorageRecord) : Prop := m.RecordNumber ≠ none ∧ m.TimeStamp ≠ none ∧ m.StatusFlags ≠ none

end Egts.Grammar
