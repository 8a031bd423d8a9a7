import Verif.Spec.Frame
/- Where the fields of an EGTS_SR_POS_DATA subrecord are on the wire. Independent of the code. -/
set_option autoImplicit false
namespace Egts.Frame

/-- little-endian value of the `n` bytes at offset `off` (bytes missing at the end count as 0) -/
def wireNat (b : Bytes) (off n : Nat) : Nat := leValue ((b.drop off).take n)

/-- NTM: seconds since 2010-01-01T00:00:00Z -/
def ntm (b : Bytes) : Nat := wireNat b 0 4
/-- LAT -/
def rawLat (b : Bytes) : Nat := wireNat b 4 4
/-- LONG -/
def rawLong (b : Bytes) : Nat := wireNat b 8 4
/-- flag byte of the position: ALTE LOHS LAHS MV BB CS FIX VLD (bit 7 .. bit 0) -/
def posFlags (b : Bytes) : UInt8 := byteAt b 12
/-- the 16-bit word DIRH ALTS SPD -/
def spdWord (b : Bytes) : Nat := wireNat b 13 2
/-- DIR, low byte of the course -/
def dirByte (b : Bytes) : UInt8 := byteAt b 15
/-- ODM -/
def odm (b : Bytes) : Nat := wireNat b 16 3
/-- ALT: 3 bytes -/
def alt (b : Bytes) : Nat := wireNat b 21 3
/-- the altitude field exists -/
def hasAlt (b : Bytes) : Bool := (posFlags b).toNat.testBit 7

end Egts.Frame
