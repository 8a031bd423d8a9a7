import Verif.Spec.Body
set_option autoImplicit false
/- Service data bodies read for their layout only: where the records and subrecords begin and end, whatever the contents are.
The standard lays them out so that a receiver can step over subrecords it does not know. -/
namespace Egts
open Frame

/-- the header of a record with `n` bytes of data: record length, record number, flags, the optional fields announced by flag bits
0, 1 and 2 (four bytes each), source and recipient service -/
def RawHeader (hdr : Bytes) (n : Nat) : Prop :=
  ∃ (num : Bytes) (fl : UInt8) (opt : Bytes) (sst rst : UInt8), hdr = leBytes 2 n ++ num ++ [fl] ++ opt ++ [sst, rst] ∧ num.length = 2 ∧
    opt.length = (if fl.toNat.testBit 0 then 4 else 0) + (if fl.toNat.testBit 1 then 4 else 0) + (if fl.toNat.testBit 2 then 4 else 0)

/-- `b` is a sequence of subrecords with these type codes and contents; every length field tells the truth -/
inductive RawSubs : Bytes → List (UInt8 × Bytes) → Prop where
  | nil : RawSubs [] []
  | cons {t : UInt8} {c rest : Bytes} {l : List (UInt8 × Bytes)} : c.length < 65536 → RawSubs rest l →
      RawSubs ([t] ++ leBytes 2 c.length ++ c ++ rest) ((t, c) :: l)

/-- `b` is a sequence of records that hold, all together, the subrecords `l`; every length field tells the truth -/
inductive RawRecords : Bytes → List (UInt8 × Bytes) → Prop where
  | nil : RawRecords [] []
  | cons {hdr data rest : Bytes} {l l' : List (UInt8 × Bytes)} : RawHeader hdr data.length → data.length < 65536 → RawSubs data l →
      RawRecords rest l' → RawRecords (hdr ++ data ++ rest) (l ++ l')

/-- the decoder for the type code of a subrecord accepts its content -/
def Understood [Platform] (s : UInt8 × Bytes) : Prop := ∃ d, Content s.1 (UInt16.ofNat s.2.length) s.2 d

/-- the type codes for which there is a decoder -/
def knownTypes : List UInt8 := [0, 1, 5, 7, 9, 15, 16, 17, 18, 19, 20, 21, 24, 25, 27]

end Egts
