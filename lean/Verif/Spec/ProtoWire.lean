import Verif.Spec.Wire
import Verif.Go.Protobuf
set_option autoImplicit false
/- The protobuf encoding, as https://protobuf.dev/programming-guides/encoding describes it, for the kinds of fields
docs/egts_sr_egtsplus_data.proto uses. Shares with the model of the library (Go/Protobuf) only the names of the types and the type of
values. -/
namespace Egts.Proto
open PB (Ty Val)

/-- base 128, least significant group first; every byte but the last has its top bit set -/
def base128 (n : Nat) : Bytes :=
  if n < 128 then [UInt8.ofNat n] else UInt8.ofNat (128 + n % 128) :: base128 (n / 128)

/-- the value of a field: unsigned and bool as varints; sint32 "zigzag" (0, -1, 1, -2 become 0, 1, 2, 3); enums in two's complement with
64 bits; fixed32, sfixed32 and float as four bytes, least significant first; bytes after their length -/
def value : Ty → Val → Bytes
  | .uint32, .u n => base128 n.toNat
  | .sint32, .i n => base128 (if n.toInt < 0 then 2 * n.toInt.natAbs - 1 else 2 * n.toInt.natAbs)
  | .bool, .b x => [if x then 1 else 0]
  | .enum, .i n => base128 (if n.toInt < 0 then 2 ^ 64 - n.toInt.natAbs else n.toInt.natAbs)
  | .fixed32, .u n => leBytes 4 n.toNat
  | .sfixed32, .i n => leBytes 4 (if n.toInt < 0 then 2 ^ 32 - n.toInt.natAbs else n.toInt.natAbs)
  | .float, .u n => leBytes 4 n.toNat
  | .bytes, .s x => base128 x.length ++ x
  | _, _ => []

/-- varint 0, length-delimited 2, 32 bits 5 -/
def wireType : Ty → Nat
  | .uint32 => 0
  | .sint32 => 0
  | .bool => 0
  | .enum => 0
  | .bytes => 2
  | .fixed32 => 5
  | .sfixed32 => 5
  | .float => 5

/-- field number and wire type -/
def key (num wt : Nat) : Bytes := base128 (8 * num + wt)

/-- an optional or required field -/
def optional (num : Nat) (t : Ty) (v : Option Val) : Bytes :=
  match v with
  | none => []
  | some v => key num (wireType t) ++ value t v

/-- a repeated enum (not packed: proto2) -/
def repeatedEnum (num : Nat) (l : List Int32) : Bytes := l.flatMap fun x => key num 0 ++ value .enum (.i x)

/-- a repeated message -/
def repeatedMsg {T : Type} (num : Nat) (wire : T → Bytes) (l : List T) : Bytes :=
  l.flatMap fun m => key num 2 ++ (base128 (wire m).length ++ wire m)

/-- the examples of the documentation: 150 is 96 01, field 1 with value 150 is 08 96 01, -2 as an enum has ten bytes -/
example : base128 150 = [0x96, 0x01] ∧ optional 1 .uint32 (some (.u 150)) = [0x08, 0x96, 0x01] ∧
    value .enum (.i (-2)) = [0xfe, 0xff, 0xff, 0xff, 0xff, 0xff, 0xff, 0xff, 0xff, 0x01] ∧ value .sint32 (.i (-2)) = [3] := by
  refine ⟨?_, ?_, ?_, ?_⟩
  · simp [base128]
  · simp [optional, key, value, wireType, base128]
  · have : (-2 : Int32).toInt = -2 := by decide
    simp [value, this, base128]
  · have : (-2 : Int32).toInt = -2 := by decide
    simp [value, this, base128]

end Egts.Proto
