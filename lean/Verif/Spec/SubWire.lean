import Verif.Spec.Pos
set_option autoImplicit false
/- Where the fields of the other subrecords are on the wire (GOST R 56361 and the EGTS service data tables). Independent of the code. -/
namespace Egts.Frame

/-- offset of a field that follows the optional fields `l`, given as (bit of the flag byte that announces the field, size) -/
def optOff (fl : UInt8) (base : Nat) (l : List (Nat × Nat)) : Nat :=
  l.foldl (fun o x => o + if fl.toNat.testBit x.1 then x.2 else 0) base

/-- value of the optional field of `n` bytes at offset `o` that bit `i` announces; 0 if it does not exist -/
def optNat (b : Bytes) (fl : UInt8) (i o n : Nat) : Nat := if fl.toNat.testBit i then wireNat b o n else 0

/-- bytes of the optional field of `n` bytes at offset `o` that bit `i` announces; empty if it does not exist -/
def optBytes (b : Bytes) (fl : UInt8) (i o n : Nat) : Bytes := if fl.toNat.testBit i then (b.drop o).take n else []

/-- bits `hi .. lo` of a byte as a number -/
def bitsNat (fl : UInt8) (lo n : Nat) : Nat := fl.toNat / 2 ^ lo % 2 ^ n

end Egts.Frame
