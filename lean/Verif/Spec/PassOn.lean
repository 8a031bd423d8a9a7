import Verif.Spec.Conform
import Verif.Spec.SubWire
import Verif.Go.Platform
set_option autoImplicit false
/- Which bytes Decode followed by Encode gives back, stated on the wire alone (except for the protobuf payload). -/
namespace Egts
open Frame
variable [P : Platform]

/-- `c` is the content of a subrecord of type `t` that can be passed on: exactly as long as its flags announce, reserved bits zero.
Excluded are the cases the library gets wrong: analog sensor flags that are not symmetric (C27), counter 2 present (C28; unless it and
counter 1 are zero), an empty server sequence, protobuf data that is not what its message is encoded to. Positions are dealt with
separately. That nothing else is passed on unchanged is `content_unchanged_iff` (Props/Unchanged). -/
def Canonical (t : UInt8) (c : Bytes) : Prop :=
  (t = 0 ∧ c.length = 3) ∨
  (t = 1 ∧ 5 ≤ c.length ∧ c.length = optOff (byteAt c 4) 5 [(0, 2), (1, 15), (2, 16), (3, 3), (5, 3), (6, 2), (7, 15)]) ∨
  (t = 5 ∧ 5 ≤ c.length) ∨
  (t = 7 ∧ ∃ u p : Bytes, (0 : UInt8) ∉ u ∧ (0 : UInt8) ∉ p ∧ (c = u ++ [0] ++ p ++ [0] ∨
    ∃ s : Bytes, (0 : UInt8) ∉ s ∧ s ≠ [] ∧ c = u ++ [0] ++ p ++ [0] ++ s ++ [0])) ∨
  (t = 9 ∧ c.length = 1) ∨
  (t = 15 ∧ ∃ m, P.pbUnmarshal c = some m ∧ P.pbMarshal m = some c) ∨
  (t = 17 ∧ 1 ≤ c.length ∧ byteAt c 0 < 32 ∧ c.length = optOff (byteAt c 0) 1 [(0, 2), (1, 2), (2, 2), (3, 1), (4, 2)]) ∨
  (t = 18 ∧ 3 ≤ c.length ∧ (∀ i, i < 8 → (byteAt c 2).toNat.testBit i = (byteAt c 2).toNat.testBit (7 - i)) ∧
    c.length = optOff (byteAt c 2) (optOff (byteAt c 0) 3 [(0, 1), (1, 1), (2, 1), (3, 1), (4, 1), (5, 1), (6, 1), (7, 1)])
      [(0, 3), (1, 3), (2, 3), (3, 3), (4, 3), (5, 3), (6, 3), (7, 3)]) ∨
  (t = 19 ∧ 1 ≤ c.length ∧
    ((byteAt c 0).toNat.testBit 1 = true → ∀ i, 1 ≤ i → i < optOff (byteAt c 0) 1 [(0, 3), (1, 3)] → byteAt c i = 0) ∧
    c.length = optOff (byteAt c 0) 1 [(0, 3), (1, 3), (2, 3), (3, 3), (4, 3), (5, 3), (6, 3), (7, 3)]) ∨
  ((t = 20 ∨ t = 21) ∧ c.length = 5 ∧ byteAt c 4 < 8) ∨
  (t = 24 ∧ c.length = 4) ∨
  (t = 25 ∧ c.length = 4) ∨
  (t = 27 ∧ c.length = 7 ∧ byteAt c 0 < 128)

/-- `c` is the content of a position that is passed on up to its coordinates: 21 bytes, 24 with altitude, whole km/h, and
bit 7 of the low byte of the course clear if the high bit is set (otherwise the library loses it, C23, C24) -/
def PlainPos (c : Bytes) : Prop :=
  c.length = (if hasAlt c then 24 else 21) ∧ spdWord c % 16384 % 10 = 0 ∧ (32768 ≤ spdWord c → dirByte c < 128)

/-- content `c` of a subrecord of type `t` becomes `c'`: unchanged, or a position in which LAT and LONG are unchanged or one less (C22)
and nothing else is changed -/
def PassedOn (t : UInt8) (c c' : Bytes) : Prop :=
  Canonical t c ∧ c' = c ∨
  t = 16 ∧ PlainPos c ∧ c'.length = c.length ∧ (∀ i, i < 4 ∨ 12 ≤ i → byteAt c' i = byteAt c i) ∧
    (rawLat c' = rawLat c ∨ rawLat c' + 1 = rawLat c) ∧ (rawLong c' = rawLong c ∨ rawLong c' + 1 = rawLong c)

/-- a subrecord content that can be passed on -/
def Passable (t : UInt8) (c : Bytes) : Prop := Canonical t c ∨ t = 16 ∧ PlainPos c

/-- `b` is a sequence of subrecords, and `b'` the same with the contents related by `r` -/
inductive SubsBecome (r : UInt8 → Bytes → Bytes → Prop) : Bytes → Bytes → Prop where
  | nil : SubsBecome r [] []
  | cons {t : UInt8} {c c' b b' : Bytes} : r t c c' → c.length < 65536 → SubsBecome r b b' →
      SubsBecome r ([t] ++ leBytes 2 c.length ++ c ++ b) ([t] ++ leBytes 2 c.length ++ c' ++ b')

/-- header of a record with `n` bytes of data -/
def recordHead (n : Nat) (rn : UInt16) (fl : UInt8) (oid evid tm : UInt32) (sst rst : UInt8) : Bytes :=
  leBytes 2 n ++ leBytes 2 rn.toNat ++ [fl] ++ (if fl.toNat.testBit 0 then leBytes 4 oid.toNat else []) ++
    (if fl.toNat.testBit 1 then leBytes 4 evid.toNat else []) ++ (if fl.toNat.testBit 2 then leBytes 4 tm.toNat else []) ++ [sst, rst]

/-- `b` is a sequence of records, and `b'` the same with subrecord contents related by `r` -/
inductive RecordsBecome (r : UInt8 → Bytes → Bytes → Prop) : Bytes → Bytes → Prop where
  | nil : RecordsBecome r [] []
  | cons {d d' b b' : Bytes} (rn : UInt16) (fl : UInt8) (oid evid tm : UInt32) (sst rst : UInt8) :
      SubsBecome r d d' → d.length < 65536 → RecordsBecome r b b' →
      RecordsBecome r (recordHead d.length rn fl oid evid tm sst rst ++ d ++ b) (recordHead d.length rn fl oid evid tm sst rst ++ d' ++ b')

/-- the body of a data packet (type 1: records) or of a RESPONSE packet (type 0: identifier, result, records) becomes another one -/
def BodyBecomes (r : UInt8 → Bytes → Bytes → Prop) (t : UInt8) (b b' : Bytes) : Prop :=
  t = 1 ∧ RecordsBecome r b b' ∨
  t = 0 ∧ ∃ (rpid : UInt16) (res : UInt8) (x x' : Bytes), RecordsBecome r x x' ∧ b = leBytes 2 rpid.toNat ++ [res] ++ x ∧
    b' = leBytes 2 rpid.toNat ++ [res] ++ x'

/-- `b` is the body of a packet of type `t`, all of whose subrecord contents satisfy `ok` -/
def BodyWith (ok : UInt8 → Bytes → Prop) (t : UInt8) (b : Bytes) : Prop := BodyBecomes (fun t c c' => ok t c ∧ c' = c) t b b

end Egts
