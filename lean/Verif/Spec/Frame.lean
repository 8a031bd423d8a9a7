import Verif.Spec.Wire
/- Where the fields of an EGTS packet are on the wire (GOST R 54619, transport layer).
Independent of the code. -/
set_option autoImplicit false
namespace Egts.Frame

/-- byte `i` of a byte string (only used below the length) -/
def byteAt (c : Bytes) (i : Nat) : UInt8 := c.getD i 0

/-- little-endian 16-bit value at offset `i` -/
def word16At (c : Bytes) (i : Nat) : Nat := leValue [byteAt c i, byteAt c (i + 1)]

/-- RTE: bit 5 of the flag byte -/
def routed (c : Bytes) : Bool := (byteAt c 2).toNat.testBit 5

/-- number of header bytes including HCS: 11, or 16 when routing fields are present -/
def headerSize (c : Bytes) : Nat := if routed c then 16 else 11

/-- HL, the header length declared by the packet -/
def declaredHL (c : Bytes) : Nat := (byteAt c 3).toNat

/-- FDL, the body length declared by the packet -/
def declaredFDL (c : Bytes) : Nat := word16At c 5

/-- text of bit `i` of byte `b`: `"0"` or `"1"` -/
def bitText (b : UInt8) (i : Nat) : Bytes := if b.toNat.testBit i then [49] else [48]

end Egts.Frame
