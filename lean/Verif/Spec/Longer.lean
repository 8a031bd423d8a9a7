import Mathlib.Data.List.Forall2
import Verif.Spec.Conform
import Verif.Spec.RawBody
import Verif.Spec.SubWire
set_option autoImplicit false
/- Subrecords with more content than the standard knows: what a device that follows a later edition of the standard sends, in which
fields were added behind the known ones. Independent of the code. -/
namespace Egts
open Frame

/-- length of the known fields of a subrecord of type `t` with content `c`, for the types that have a layout of their own (the flag bytes
in the content say which optional fields there are). The other types have no end of their own: record responses, dispatcher and login
texts and messages go on to the end of the content, and type 20 is told apart by its length. -/
def knownLength (t : UInt8) (c : Bytes) : Option Nat :=
  if t = 1 then some (optOff (byteAt c 4) 5 [(0, 2), (1, 15), (2, 16), (3, 3), (5, 3), (6, 2), (7, 15)])
  else if t = 9 then some 1
  else if t = 16 then some (optOff (byteAt c 12) 21 [(7, 3)])
  else if t = 17 then some (optOff (byteAt c 0) 1 [(0, 2), (1, 2), (2, 2), (3, 1), (4, 2)])
  else if t = 18 then some (optOff (byteAt c 2)
    (optOff (byteAt c 0) 3 [(0, 1), (1, 1), (2, 1), (3, 1), (4, 1), (5, 1), (6, 1), (7, 1)])
    [(0, 3), (1, 3), (2, 3), (3, 3), (4, 3), (5, 3), (6, 3), (7, 3)])
  else if t = 19 then some (optOff (byteAt c 0) 1 [(0, 3), (1, 3), (2, 3), (3, 3), (4, 3), (5, 3), (6, 3), (7, 3)])
  else if t = 21 then some 5
  else if t = 24 then some 4
  else if t = 25 then some 4
  else if t = 27 then some 7
  else none

/-- `c'` is `c`, or `c` with anything after it if `c` holds all the known fields of its type -/
def LongerContent (t : UInt8) (c c' : Bytes) : Prop :=
  c' = c ∨ ∃ n x, knownLength t c = some n ∧ n ≤ c.length ∧ c' = c ++ x

/-- two sequences of subrecords: the same type codes, contents related by `L`; every length field tells the truth -/
inductive SubsBy (L : UInt8 → Bytes → Bytes → Prop) : Bytes → Bytes → Prop where
  | nil : SubsBy L [] []
  | cons {t : UInt8} {c c' rest rest' : Bytes} : c.length < 65536 → c'.length < 65536 → L t c c' → SubsBy L rest rest' →
      SubsBy L ([t] ++ leBytes 2 c.length ++ c ++ rest) ([t] ++ leBytes 2 c'.length ++ c' ++ rest')

/-- two sequences of records: the same headers up to the record length, subrecords as in `SubsBy`; every length field tells the truth -/
inductive RecordsBy (L : UInt8 → Bytes → Bytes → Prop) : Bytes → Bytes → Prop where
  | nil : RecordsBy L [] []
  | cons {h d d' rest rest' : Bytes} : RawHeader (leBytes 2 d.length ++ h) d.length → d.length < 65536 → d'.length < 65536 →
      SubsBy L d d' → RecordsBy L rest rest' →
      RecordsBy L (leBytes 2 d.length ++ h ++ d ++ rest) (leBytes 2 d'.length ++ h ++ d' ++ rest')

/-- `LongerContent`, and a position with altitude is only continued if it has a byte after the three of its altitude -/
def LongerNoAltitude (t : UInt8) (c c' : Bytes) : Prop :=
  LongerContent t c c' ∧ (t = 16 → hasAlt c = true → c' = c ∨ 25 ≤ c.length)

section
variable [P : Platform]

/-- the same records, numbers, times, services, type codes and data: all but the length fields -/
def SameData (l l' : List ServiceDataRecord) : Prop :=
  List.Forall₂ (fun r r' => { r' with RecordLength := r.RecordLength, RecordDataSet := r.RecordDataSet } = r ∧
    r'.RecordDataSet.map (fun rd => (rd.SubrecordType, rd.SubrecordData)) = r.RecordDataSet.map (fun rd => (rd.SubrecordType, rd.SubrecordData))) l l'

/-- `c` and `c'` are data packets with the same identifier, and the records of `c'` are those of `c` with longer subrecords -/
def LongerPacket (c c' : Bytes) : Prop := ∃ hdr hdr' b b' pid l, c = packet hdr b ∧ c' = packet hdr' b' ∧
  c.length < 65536 ∧ c'.length < 65536 ∧ b ≠ [] ∧
  RightHeader hdr 1 pid b.length ∧ RightHeader hdr' 1 pid b'.length ∧ CompleteRecords b l ∧ RecordsBy LongerContent b b'

end
end Egts
