import Verif.Spec.Conform
set_option autoImplicit false
/- What Decode looks at in an arbitrary packet, whatever its header length field says. -/
namespace Egts
open Frame

/-- the number of bytes the header checksum is computed over: the header length field minus one, modulo 256 (egts_pkg.go:104) -/
def checkedHeader (c : Bytes) : Nat := (declaredHL c + 255) % 256

/-- the end of the bytes the body checksum is computed over: header length plus body length, modulo 65536 (egts_pkg.go:133) -/
def checkedEnd (c : Bytes) : Nat := (declaredHL c + declaredFDL c) % 65536

/-- the bytes that are decoded as the body: the bytes after the header, filled up with zeros if they are too few -/
def decodedBody (c : Bytes) : Bytes :=
  (c.drop (headerSize c)).take (declaredFDL c) ++ List.replicate (declaredFDL c - (c.length - headerSize c)) 0

/-- the two bytes after the body, little-endian; a missing second byte counts as zero -/
def sentChecksum (c : Bytes) : Nat := leValue ((c.drop (headerSize c + declaredFDL c)).take 2)

/-- the header is complete, the slice reaches as far as its length field says, and its checksum is right over that many bytes -/
def HeaderOk (c spare : Bytes) : Prop :=
  headerSize c ≤ c.length ∧ checkedHeader c ≤ (c ++ spare).length ∧
    byteAt c (headerSize c - 1) = crc8 ((c ++ spare).take (checkedHeader c))

end Egts
