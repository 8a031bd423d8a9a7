import Verif.Go.Basic
set_option autoImplicit false
/- The protobuf wire format as golang/protobuf v1.5.2 (a front end of google.golang.org/protobuf) reads and writes it for
messages described by a schema. This models the library that egts_sr_egtsplus_data.go:241-247 calls (proto.Unmarshal,
proto.Marshal), not code of the repository; the schema comes from the repository (Model/StorageRecord.lean).
Only what the schema of the repository uses is covered: optional and required scalars, repeated enums, repeated messages
of scalars. Not modelled: the limit of 10000 on the nesting of unknown groups, messages of more than 2 GB, nil elements in
repeated messages. Every definition of this file is part of what lines 241-247 of that file call. -/
namespace Egts.PB

/-- AppendVarint, at most ten bytes -/
def putVarint : Nat → Nat → Bytes
  | 0, _ => []
  | k + 1, n => if n < 128 then [UInt8.ofNat n] else UInt8.ofNat (n % 128 + 128) :: putVarint k (n / 128)

/-- AppendVarint of a 64-bit number -/
def varint (n : Nat) : Bytes := putVarint 10 n

/-- ConsumeVarint: at most ten bytes, the value fits 64 bits -/
def getVarintAux : Nat → Bytes → Option (Nat × Bytes)
  | 0, _ => none
  | _ + 1, [] => none
  | k + 1, c :: s =>
    if c < 128 then if k = 0 ∧ 1 < c then none else some (c.toNat, s)
    else match getVarintAux k s with
      | none => none
      | some (n, r) => some (n * 128 + (c.toNat - 128), r)

/-- ConsumeVarint -/
def getVarint (b : Bytes) : Option (Nat × Bytes) := getVarintAux 10 b

/-- four bytes, little endian -/
def getFixed32 : Bytes → Option (UInt32 × Bytes)
  | a :: b :: c :: d :: r => some (UInt32.ofNat (a.toNat + 256 * b.toNat + 65536 * c.toNat + 16777216 * d.toNat), r)
  | _ => none

/-- AppendFixed32 -/
def putFixed32 (n : UInt32) : Bytes :=
  [UInt8.ofNat n.toNat, UInt8.ofNat (n.toNat / 256), UInt8.ofNat (n.toNat / 65536), UInt8.ofNat (n.toNat / 16777216)]

/-- ConsumeBytes: a length and that many bytes -/
def getBytes (b : Bytes) : Option (Bytes × Bytes) :=
  match getVarint b with
  | none => none
  | some (n, r) => if n ≤ r.length then some (r.take n, r.drop n) else none

/-- AppendBytes: a length and the bytes -/
def putBytes (b : Bytes) : Bytes := varint b.length ++ b

/-- types of scalar fields -/
inductive Ty where
  | uint32 | sint32 | bool | enum | fixed32 | sfixed32 | float | bytes
deriving DecidableEq

/-- values of scalar fields: uint32 (a float32 by its bits), int32, bool, []byte -/
inductive Val where
  | u (n : UInt32)
  | i (n : Int32)
  | b (x : Bool)
  | s (x : Bytes)
deriving DecidableEq

/-- the value has the type -/
def Val.has : Val → Ty → Prop
  | .u _, .uint32 | .u _, .fixed32 | .u _, .float => True
  | .i _, .sint32 | .i _, .enum | .i _, .sfixed32 => True
  | .b _, .bool => True
  | .s _, .bytes => True
  | _, _ => False

/-- wire type: 0 varint, 2 length and bytes, 5 four bytes -/
def Ty.wire : Ty → Nat
  | .uint32 | .sint32 | .bool | .enum => 0
  | .bytes => 2
  | .fixed32 | .sfixed32 | .float => 5

/-- EncodeZigZag -/
def zigzag (n : Int32) : Nat := if 0 ≤ n.toInt then (2 * n.toInt).toNat else (-2 * n.toInt - 1).toNat
/-- DecodeZigZag of the low 32 bits -/
def unzigzag (n : Nat) : Int32 :=
  let m := n % 4294967296
  if m % 2 = 0 then Int32.ofInt (m / 2 : Nat) else Int32.ofInt (-((m / 2 : Nat) : Int) - 1)

/-- the value of a scalar field, by its type (impl/codec_gen.go: append…) -/
def putVal : Ty → Val → Bytes
  | .uint32, .u n => varint n.toNat
  | .sint32, .i n => varint (zigzag n)
  | .bool, .b x => varint (if x then 1 else 0)
  | .enum, .i n => varint (n.toInt % 18446744073709551616).toNat        -- sign extended to 64 bits
  | .fixed32, .u n => putFixed32 n
  | .sfixed32, .i n => putFixed32 n.toUInt32
  | .float, .u n => putFixed32 n
  | .bytes, .s x => putBytes x
  | _, _ => []

/-- the value of a scalar field, by its type (impl/codec_gen.go: consume…) -/
def getVal (t : Ty) (b : Bytes) : Option (Val × Bytes) :=
  match t with
  | .uint32 => (getVarint b).map fun (n, r) => (.u (UInt32.ofNat n), r)
  | .sint32 => (getVarint b).map fun (n, r) => (.i (unzigzag n), r)
  | .bool => (getVarint b).map fun (n, r) => (.b (n ≠ 0), r)
  | .enum => (getVarint b).map fun (n, r) => (.i (Int32.ofNat n), r)
  | .fixed32 => (getFixed32 b).map fun (n, r) => (.u n, r)
  | .sfixed32 => (getFixed32 b).map fun (n, r) => (.i n.toInt32, r)
  | .float => (getFixed32 b).map fun (n, r) => (.u n, r)
  | .bytes => (getBytes b).map fun (x, r) => (.s x, r)

/-- field number and wire type -/
def tag (num wt : Nat) : Bytes := varint (num * 8 + wt)

/-- the tag of a field of a message (impl/decode.go); field numbers are 1 to 2^29 - 1 -/
def getTag (b : Bytes) : Option (Nat × Nat × Bytes) :=
  match getVarint b with
  | none => none
  | some (t, r) => if 1 ≤ t / 8 ∧ t / 8 < 536870912 then some (t / 8, t % 8, r) else none

/-- the tag of a field of an unknown group (protowire.ConsumeTag); field numbers are 1 to 2^31 - 1 -/
def getGroupTag (b : Bytes) : Option (Nat × Nat × Bytes) :=
  match getVarint b with
  | none => none
  | some (t, r) => if 1 ≤ t / 8 ∧ t / 8 < 2147483648 then some (t / 8, t % 8, r) else none

mutual
/-- ConsumeFieldValue: skip the value of an unknown field; what follows it -/
def skip : Nat → Nat → Nat → Bytes → Option Bytes
  | 0, _, _, _ => none
  | f + 1, num, wt, b =>
    if wt = 0 then (getVarint b).map (·.2)
    else if wt = 1 then if 8 ≤ b.length then some (b.drop 8) else none
    else if wt = 2 then (getBytes b).map (·.2)
    else if wt = 5 then if 4 ≤ b.length then some (b.drop 4) else none
    else if wt = 3 then skipGroup f num b
    else none
/-- the fields of an unknown group up to its end tag -/
def skipGroup : Nat → Nat → Bytes → Option Bytes
  | 0, _, _ => none
  | f + 1, num, b =>
    match getGroupTag b with
    | none => none
    | some (n, wt, r) =>
      if wt = 4 then if n = num then some r else none
      else match skip f n wt r with
        | none => none
        | some r => skipGroup f num r
end

/-- what a message does with the value of a field -/
inductive Handled (S : Type) where
  | ok (s : S) (rest : Bytes)
  | fail
  | unknown

/-- change the state -/
def Handled.map {S T : Type} (g : S → T) : Handled S → Handled T
  | .ok s r => .ok (g s) r
  | .fail => .fail
  | .unknown => .unknown

/-- the loop of unmarshalPointer over the fields of a message: `known` handles the fields of the schema, everything else is
kept, with its tag written anew -/
def loop {S : Type} (known : Nat → Nat → Bytes → S → Handled S) : Nat → Bytes → S → Bytes → Option (S × Bytes)
  | _, [], s, u => some (s, u)
  | 0, _ :: _, _, _ => none
  | f + 1, b@(_ :: _), s, u =>
    match getTag b with
    | none => none
    | some (num, wt, r) =>
      if wt = 4 then none
      else match known num wt r s with
        | .ok s r => loop known f r s u
        | .fail => none
        | .unknown =>
          match skip (2 * r.length + 2) num wt r with
          | none => none
          | some r' => loop known f r' s (u ++ (tag num wt ++ r.take (r.length - r'.length)))

/-- a message of optional scalars: the values in the order of the schema, and the unknown fields -/
structure Sub where
  vals : List (Option Val)
  unknown : Bytes := []
deriving DecidableEq

/-- the fields of an inner message: numbers and types -/
abbrev SubSchema := List (Nat × Ty)

/-- set the field with number `num` -/
def setSub (num wt : Nat) (b : Bytes) : SubSchema → List (Option Val) → Handled (List (Option Val))
  | (n, t) :: sch, v :: vals =>
    if n = num then
      if wt = t.wire then
        match getVal t b with
        | none => .fail
        | some (x, r) => .ok (some x :: vals) r
      else .unknown
    else (setSub num wt b sch vals).map (v :: ·)
  | _, _ => .unknown

/-- an inner message (impl/codec_field.go: consumeMessageInfo) -/
def getSub (sch : SubSchema) (b : Bytes) : Option Sub :=
  (loop (fun num wt b s => setSub num wt b sch s) b.length b (sch.map fun _ => none) []).map fun (v, u) => ⟨v, u⟩

/-- the fields that are set, in the order of the schema (field numbers ascending) -/
def putSubFields : SubSchema → List (Option Val) → Bytes
  | (n, t) :: sch, some v :: vals => tag n t.wire ++ putVal t v ++ putSubFields sch vals
  | _ :: sch, none :: vals => putSubFields sch vals
  | _, _ => []

/-- an inner message: its fields, then the unknown ones -/
def putSub (sch : SubSchema) (m : Sub) : Bytes := putSubFields sch m.vals ++ m.unknown

/-- kinds of fields of the outer message -/
inductive Field where
  | one (t : Ty)
  | enums
  | msgs (sch : SubSchema)

/-- the value of a field of the outer message -/
inductive Slot where
  | one (v : Option Val)
  | enums (l : List Int32)
  | msgs (l : List Sub)
deriving DecidableEq

/-- the fields of the outer message: numbers and kinds -/
abbrev Schema := List (Nat × Field)

/-- the value before anything has been read -/
def Field.empty : Field → Slot
  | .one _ => .one none
  | .enums => .enums []
  | .msgs _ => .msgs []

/-- a packed list of enums: varints up to the end -/
def getPacked : Nat → Bytes → Option (List Int32)
  | _, [] => some []
  | 0, _ :: _ => none
  | f + 1, b@(_ :: _) =>
    match getVarint b with
    | none => none
    | some (n, r) => (getPacked f r).map (Int32.ofNat n :: ·)

/-- the value of a field of the outer message -/
def setSlot (wt : Nat) (b : Bytes) : Field → Slot → Handled Slot
  | .one t, .one _ =>
    if wt = t.wire then
      match getVal t b with
      | none => .fail
      | some (x, r) => .ok (.one (some x)) r
    else .unknown
  | .enums, .enums l =>
    if wt = 0 then
      match getVarint b with
      | none => .fail
      | some (n, r) => .ok (.enums (l ++ [Int32.ofNat n])) r
    else if wt = 2 then
      match getBytes b with
      | none => .fail
      | some (p, r) =>
        match getPacked p.length p with
        | none => .fail
        | some l' => .ok (.enums (l ++ l')) r
    else .unknown
  | .msgs sch, .msgs l =>
    if wt = 2 then
      match getBytes b with
      | none => .fail
      | some (p, r) =>
        match getSub sch p with
        | none => .fail
        | some m => .ok (.msgs (l ++ [m])) r
    else .unknown
  | _, _ => .unknown

/-- set the field with number `num` of the outer message -/
def setField (num wt : Nat) (b : Bytes) : Schema → List Slot → Handled (List Slot)
  | (n, k) :: sch, v :: vals =>
    if n = num then (setSlot wt b k v).map (· :: vals)
    else (setField num wt b sch vals).map (v :: ·)
  | _, _ => .unknown

/-- the outer message, without the check of required fields -/
def getMsg (sch : Schema) (b : Bytes) : Option (List Slot × Bytes) :=
  loop (fun num wt b s => setField num wt b sch s) b.length b (sch.map (·.2.empty)) []

/-- a field of the outer message -/
def putSlot (n : Nat) : Field → Slot → Bytes
  | .one t, .one (some v) => tag n t.wire ++ putVal t v
  | .enums, .enums l => l.flatMap fun x => tag n 0 ++ putVal .enum (.i x)
  | .msgs sch, .msgs l => l.flatMap fun m => tag n 2 ++ putBytes (putSub sch m)
  | _, _ => []

/-- the fields of the outer message, in the order of the schema (field numbers ascending) -/
def putFields : Schema → List Slot → Bytes
  | (n, k) :: sch, v :: vals => putSlot n k v ++ putFields sch vals
  | _, _ => []

/-- the outer message: its fields, then the unknown ones -/
def putMsg (sch : Schema) (m : List Slot × Bytes) : Bytes := putFields sch m.1 ++ m.2

end Egts.PB
